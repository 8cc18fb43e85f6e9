import Verif.Data.Tok

set_option autoImplicit false

/-! Generated by `tools/tables.py` from `Tables/hsokolov.table` in the repository. -/

namespace QED
namespace Shipped

/-- Pairs of `hsokolov.table` from number 0. -/
def h0 : List (Tok × Tok) := [
  (⟨true, 1, 5, none, none, 'e'⟩, f 16 7189960759048358), (g 15 4987975951903808, f 16 7189959234513367),
  (g 15 4975951903807616, f 16 7189957678439705), (g 15 4963927855711423, f 16 7189956104838132),
  (g 14 495190380761523, f 16 7189954506071293), (g 15 4939879759519038, f 16 7189952882632514),
  (g 15 4927855711422846, f 16 7189951237443761), (g 15 4915831663326653, f 16 7189949562344649),
  (g 15 4903807615230461, f 16 7189947858368275), (g 15 4891783567134269, f 16 7189946139915568),
  (g 16 48797595190380765, f 16 7189945275719337), (g 15 4867735470941883, f 15 718994950584725),
  (g 15 4855711422845691, f 16 7189947487798216), (g 15 4843687374749499, f 16 7189945440625286),
  (g 15 4831663326653307, f 16 7189943362874119), (g 15 4819639278557114, f 16 7189941246794036),
  (g 15 4807615230460922, f 16 7189939109214306), (g 16 47955911823647295, f 15 718993692793118),
  (g 15 4783567134268537, f 15 718993471025015), (g 15 4771543086172345, f 16 7189932454391738),
  (g 15 4759519038076152, f 16 7189930158521184), (g 14 474749498997996, f 16 7189928289679286),
  (g 15 4735470941883768, f 16 7189925890614104), (g 16 47234468937875755, f 15 718992344699526),
  (g 16 47114228456913825, f 16 7189920953357408), (g 14 469939879759519, f 16 7189918423697341),
  (g 15 4687374749498998, f 16 7189920369906659), (g 15 4675350701402806, f 16 7189909090297446),
  (g 15 4663326653306613, f 16 7189906498256643), (g 15 4651302605210421, f 16 7189903845113512),
  (g 16 46392785571142285, f 16 7189908958160554), (g 15 4627254509018036, f 16 7189905962504234),
  (g 15 4615230460921843, f 15 718990592388812), (g 15 4603206412825651, f 15 718990273325959),
  (g 15 4591182364729459, f 16 7189899468352338), (g 15 4579158316633267, f 16 7189896137294162),
  (g 15 4567134268537074, f 16 7189892736565295), (g 16 45551102204408815, f 16 7189889264072987),
  (g 15 4543086172344689, f 16 7189885718020069), (g 15 4531062124248497, f 16 7189884690007923),
  (g 15 4519038076152305, f 16 7189878396427605), (g 15 4507014028056112, f 16 7189877061134935),
  (g 14 449498997995992, f 16 7189870745557644), (g 15 4482965931863728, f 16 7189869096767997),
  (g 15 4470941883767535, f 16 7189864981775732), (g 15 4458917835671342, f 16 7189855621510252),
  (g 14 444689378757515, f 16 7189851464113969), (g 15 4434869739478958, f 16 7189853730331164),
  (g 15 4422845691382766, f 16 7189849181981435), (g 15 4410821643286573, f 16 7189847892164604),
  (g 15 4398797595190381, f 16 7189843038281235), (g 15 4386773547094188, f 16 7189838073667523),
  (g 15 4374749498997996, f 16 7189832995213182), (g 15 4362725450901803, f 16 7189827798445632),
  (g 15 4350701402805611, f 16 7189822489030939), (g 15 4338677354709419, f 16 7189817053892353),
  (g 15 4326653306613227, f 15 718981148367988), (g 16 43146292585170345, f 16 7189805777517264),
  (g 15 4302605210420841, f 16 7189799934800425), (g 15 4290581162324649, f 16 7189793948744524),
  (g 15 4278557114228457, f 16 7189787814814699), (g 15 4266533066132265, f 16 7189781540759713),
  (g 15 4254509018036072, f 16 7189778324251007), (g 14 424248496993988, f 16 7189768498051997),
  (g 16 42304609218436875, f 16 7189764774963908), (g 15 4218436873747495, f 16 7189761793195376),
  (g 15 4206412825651302, f 16 7189754483000308), (g 14 419438877755511, f 16 7189747003783337),
  (g 15 4182364729458918, f 16 7189739336087602), (g 15 4170340681362726, f 16 7189731476014387),
  (g 15 4158316633266533, f 16 7189723420963712), (g 16 41462925851703405, f 16 7189713510976836),
  (g 15 4134268537074148, f 16 7189705090825637), (g 15 4122244488977956, f 16 7189696458791308),
  (g 15 4110220440881764, f 16 7189687604069595), (g 15 4098196392785571, f 16 7189678520361713),
  (g 15 4086172344689379, f 16 7189670654487602), (g 15 4074148296593187, f 16 7189661053135636),
  (g 15 4062124248496994, f 16 7189651202670424), (g 15 4050100200400801, f 16 7189641104911786),
  (g 15 4038076152304609, f 15 718962789539412), (g 15 4026052104208417, f 16 7189622636458822),
  (g 15 4014028056112225, f 15 718961377344399), (g 15 4002004008016032, f 15 718960243526262),
  (g 16 39899799599198396, f 16 7189590803379077), (g 16 39779559118236474, f 16 7189578868487327),
  (g 16 39659318637274548, f 16 7189566625970695), (g 16 39539078156312626, f 16 7189555665169983),
  (g 14 394188376753507, f 16 7189542724337306), (g 15 3929859719438878, f 16 7189529441847018),
  (g 15 3917835671342685, f 16 7189516789546253), (g 15 3905811623246493, f 16 7189502780130014),
  (g 16 38937875751503004, f 16 7189489137982426), (g 15 3881763527054108, f 16 7189474349319606),
  (g 15 3869739478957916, f 16 7189460131606228), (g 16 38577154308617234, f 16 7189444521048075),
  (g 16 38456913827655312, f 16 7189429497446117), (g 16 38336673346693386, f 16 7189413018925902),
  (g 16 38216432865731464, f 16 7189396102915067), (g 15 3809619238476954, f 16 7189378735722137)]

/-- Pairs of `hsokolov.table` from number 100. -/
def h1 : List (Tok × Tok) := [
  (g 16 37975951903807617, f 16 7189360903944989), (g 15 3785571142284569, f 16 7189342590454538),
  (g 15 3773547094188377, f 16 7189323788078852), (g 16 37615230460921842, f 16 7189306834154643),
  (g 15 3749498997995992, f 16 7189288961608629), (g 16 37374749498997994, f 16 7189268474981845),
  (g 16 37254509018036073, f 16 7189247444442395), (g 16 37134268537074147, f 16 7189224877172746),
  (g 16 37014028056112225, f 14 71892027329263), (g 14 368937875751503, f 15 718917998032083),
  (g 16 36773547094188377, f 16 7189156606884606), (g 16 36653306613226455, f 16 7189132600564632),
  (g 15 3653306613226453, f 16 7189108798674555), (g 16 36412825651302607, f 16 7189075775151474),
  (g 15 3629258517034068, f 16 7189061067177653), (g 15 3617234468937876, f 16 7189032892756153),
  (g 16 36052104208416833, f 16 7189005347519756), (g 15 3593186372745491, f 16 7188978302021971),
  (g 16 35811623246492985, f 16 7188938331806717), (g 16 35691382765531063, f 16 7188908735717441),
  (g 16 35571142284569137, f 16 7188878315747544), (g 16 35450901803607215, f 16 7188847047265585),
  (g 15 3533066132264529, f 16 7188814907639612), (g 16 35210420841683367, f 16 7188781873301912),
  (g 15 3509018036072144, f 16 7188747919322291), (g 15 3496993987975952, f 16 7188713020416981),
  (g 16 34849699398797593, f 16 7188677147499697), (g 15 3472945891783567, f 16 7188640274919998),
  (g 16 34609218436873745, f 16 7188602374918887), (g 16 34488977955911824, f 16 7188563419920612),
  (g 14 343687374749499, f 16 7188523373862237), (g 16 34248496993987976, f 16 7188482239900886),
  (g 16 34128256513026054, f 14 71884399438736), (g 15 3400801603206413, f 16 7188396451292142),
  (g 16 33887775551102206, f 16 7188351744851676), (g 15 3376753507014028, f 16 7188305791637059),
  (g 15 3364729458917836, f 16 7188258556430457), (g 15 3352705410821643, f 16 7188210003276733),
  (g 15 3340681362725451, f 16 7188160094336057), (g 16 33286573146292584, f 16 7188108790285538),
  (g 16 33166332665330662, f 16 7188056054594913), (g 16 33046092184368736, f 16 7188001846736171),
  (g 16 32925851703406814, f 16 7187946124861606), (g 15 3280561122244489, f 16 7187888848623275),
  (g 16 32685370741482966, f 16 7187829972311081), (g 15 3256513026052104, f 16 7187769466603348),
  (g 15 3244488977955912, f 16 7187707263793274), (g 16 32324649298597192, f 16 7187655144712543),
  (g 15 3220440881763527, f 16 7187589088719839), (g 15 3208416833667335, f 16 7187521208684989),
  (g 16 31963927855711423, f 16 7187451449081829), (g 14 318436873747495, f 16 7187369169315154),
  (g 16 31723446893787575, f 16 7187295781418469), (g 16 31603206412825653, f 15 718722034504183),
  (g 16 31482965931863727, f 16 7187142815165353), (g 16 31362725450901805, f 16 7187063114281805),
  (g 15 3124248496993988, f 16 7186981183559785), (g 16 31122244488977957, f 16 7186896970794455),
  (g 15 3100200400801603, f 16 7186810406963443), (g 15 3088176352705411, f 16 7186721429387527),
  (g 16 30761523046092183, f 16 7186629968618978), (g 15 3064128256513026, f 16 7186535958814799),
  (g 16 30521042084168335, f 16 7186439322889501), (g 16 30400801603206413, f 16 7186339991842585),
  (g 16 30280561122244487, f 16 7186237896028997), (g 16 30160320641282565, f 16 7186132950033488),
  (g 15 3004008016032064, f 16 7186025075085037), (g 16 29919839679358717, f 16 7185914205343158),
  (g 16 29799599198396796, f 16 7185800239218976), (g 15 2967935871743487, f 16 7185683092242813),
  (g 16 29559118236472948, f 16 7185562681318448), (g 15 2943887775551102, f 16 7185438916046858),
  (g 14 293186372745491, f 16 7185311719384344), (g 16 29198396793587174, f 16 7185180972183318),
  (g 15 2907815631262525, f 16 7185046578489268), (g 16 28957915831663326, f 16 7184908444986708),
  (g 16 28837675350701404, f 16 7184766467327892), (g 16 28717434869739478, f 16 7184620539533162),
  (g 16 28597194388777556, f 16 7184470553281578), (g 15 2847695390781563, f 16 7184316396569419),
  (g 15 2835671342685371, f 16 7184157955455966), (g 15 2823647294589178, f 16 7183995110108865),
  (g 15 2811623246492986, f 16 7183827758956367), (g 16 27995991983967934, f 16 7183655740967712),
  (g 15 2787575150300601, f 16 7183478945169377), (g 15 2775551102204409, f 16 7183297237688354),
  (g 16 27635270541082164, f 16 7183125312843225), (g 16 27515030060120242, f 16 7182932976255795),
  (g 16 27394789579158316, f 16 7182735326365602), (g 16 27274549098196395, f 16 7182532218471296),
  (g 15 2715430861723447, f 16 7182325431876491), (g 16 27034068136272547, f 16 7182110900088403),
  (g 15 2691382765531062, f 16 7181890450999359), (g 14 267935871743487, f 16 7181663931040105),
  (g 16 26673346693386772, f 16 7181420753756498), (g 15 2655310621242485, f 16 7181181830534912),
  (g 16 26432865731462925, f 16 7180936301619668), (g 16 26312625250501003, f 15 718068398755589),
  (g 16 26192384769539077, f 16 7180424706438266), (g 16 26072144288577155, f 16 7180158266044856)]

/-- Pairs of `hsokolov.table` from number 200. -/
def h2 : List (Tok × Tok) := [
  (g 15 2595190380761523, f 15 717988447232223), (g 16 25831663326653307, f 16 7179603124684575),
  (g 15 2571142284569138, f 15 717931402033858), (g 15 2559118236472946, f 16 7179016946857616),
  (g 16 25470941883767537, f 16 7178711690006248), (g 15 2535070140280561, f 16 7178398023661966),
  (g 15 2523046092184369, f 16 7178075748172293), (g 16 25110220440881763, f 16 7177744603015486),
  (g 15 2498997995991984, f 16 7177404329480883), (g 16 24869739478957915, f 16 7177054704767252),
  (g 16 24749498997995993, f 15 717669547801514), (g 16 24629258517034067, f 15 717632639061895),
  (g 16 24509018036072145, f 16 7175947178275394), (g 15 2438877755511022, f 16 7175557568273699),
  (g 16 24268537074148298, f 16 7175157280181237), (g 15 2414829659318637, f 16 7174746030604368),
  (g 15 2402805611222445, f 16 7174323528117121), (g 16 23907815631262523, f 15 717388946950843),
  (g 14 237875751503006, f 15 717344354902355), (g 16 23667334669338675, f 16 7172985451059203),
  (g 16 23547094188376754, f 16 7172514862476412), (g 16 23426853707414828, f 16 7172043678946594),
  (g 16 23306613226452906, f 16 7171546739149756), (g 16 23186372745490984, f 16 7171036287396167),
  (g 15 2306613226452906, f 14 71705119680589), (g 16 22945891783567136, f 16 7169973412890177),
  (g 15 2282565130260521, f 16 7169409585344898), (g 15 2270541082164329, f 15 716884171479251),
  (g 15 2258517034068136, f 16 7168258447548688), (g 15 2246492985971944, f 16 7167659396183327),
  (g 16 22344689378757514, f 16 7167044129932301), (g 16 22224448897795592, f 16 7166412223510028),
  (g 16 22104208416833666, f 16 7165763253031572), (g 16 21983967935871744, f 16 7165096775852238),
  (g 15 2186372745490982, f 16 7164412339189188), (g 16 21743486973947896, f 16 7163709475036592),
  (g 15 2162324649298597, f 16 7162987734912398), (g 15 2150300601202405, f 16 7162246581684524),
  (g 16 21382765531062122, f 16 7161485547087366), (g 14 212625250501002, f 16 7160704120283883),
  (g 16 21142284569138274, f 16 7159901784431042), (g 16 21022044088176353, f 16 7159077993692134),
  (g 15 2090180360721443, f 16 7158232220448185), (g 16 20781563126252505, f 16 7157363896341178),
  (g 16 20661322645290583, f 16 7156472448838133), (g 16 20541082164328657, f 16 7155557301370521),
  (g 16 20420841683366735, f 16 7154617856228981), (g 15 2030060120240481, f 16 7153653519872288),
  (g 16 20180360721442887, f 16 7152663651316921), (g 15 2006012024048096, f 15 715164761452903),
  (g 15 1993987975951904, f 16 7150604770188963), (g 16 19819639278557115, f 16 7149534452524321),
  (g 16 19699398797595191, f 16 7148435980581994), (g 16 19579158316633267, f 16 7147308667864903),
  (g 16 19458917835671343, f 16 7146151805549272), (g 15 1933867735470942, f 16 7144964674333897),
  (g 16 19218436873747495, f 16 7143746537649748), (g 16 19098196392785571, f 16 7142496661839223),
  (g 16 18977955911823647, f 16 7141214255237067), (g 16 18857715430861723, f 16 7139898538855943),
  (g 14 187374749498998, f 16 7138548724110747), (g 16 18617234468937875, f 16 7137176865460065),
  (g 16 18496993987975952, f 16 7135759867320959), (g 16 18376753507014028, f 16 7134302374785887),
  (g 16 18256513026052104, f 16 7132807450541131), (g 15 1813627254509018, f 16 7131274220695389),
  (g 16 18016032064128256, f 16 7129701786219425), (g 16 17895791583166332, f 16 7128089239676576),
  (g 15 1777555110220441, f 16 7126435674333673), (g 16 17655310621242486, f 16 7124740119304556),
  (g 16 17535070140280562, f 16 7123004455768394), (g 16 17414829659318638, f 14 71212219632173),
  (g 16 17294589178356714, f 16 7119382446762516), (g 15 1717434869739479, f 16 7117509457737619),
  (g 16 17054108216432866, f 16 7115589518719228), (g 16 16933867735470942, f 16 7113621587534558),
  (g 16 16813627254509018, f 15 711160460188008), (g 16 16693386773547094, f 16 7109537486595752),
  (g 15 1657314629258517, f 14 71074191475989), (g 16 16452905811623246, f 16 7105248474913874),
  (g 16 16332665330661322, f 16 7103024338775431), (g 16 16212424849699398, f 15 710074561320777),
  (g 16 16092184368737474, f 16 7098411139518158), (g 15 1597194388777555, f 16 7096019688952949),
  (g 16 15851703406813626, f 16 7093570101449698), (g 16 15731462925851702, f 14 70910611692953),
  (g 16 15611222444889779, f 16 7088491666243951), (g 16 15490981963927857, f 15 708586035054524),
  (g 16 15370741482965933, f 16 7083165965183975), (g 16 15250501002004009, f 16 7080407237143785),
  (g 16 15130260521042085, f 16 7077582880214626), (g 15 1501002004008016, f 16 7074691589669422),
  (g 16 14889779559118237, f 16 7071746110227495), (g 16 14769539078156313, f 16 7068716611151737),
  (g 15 1464929859719439, f 16 7065616188596352), (g 16 14529058116232465, f 16 7062430519223092),
  (g 15 1440881763527054, f 16 7059184530510849), (g 16 14288577154308617, f 16 7055863474041232),
  (g 16 14168336673346693, f 16 7052465968721875), (g 15 1404809619238477, f 16 7048990600778773)]

/-- Pairs of `hsokolov.table` from number 300. -/
def h3 : List (Tok × Tok) := [
  (g 16 13927855711422845, f 16 7045435947531964), (g 16 13807615230460921, f 16 7041800576541857),
  (g 16 13687374749498997, f 16 7038083041395401), (g 16 13567134268537073, f 14 70342818831033),
  (g 15 1344689378757515, f 16 7030395643972445), (g 16 13326653306613228, f 15 702642285005894),
  (g 16 13206412825651304, f 16 7022361999361519), (g 15 1308617234468938, f 16 7018211608456919),
  (g 16 12965931863727456, f 16 7013970177846209), (g 16 12845691382765532, f 16 7009636203314003),
  (g 16 12725450901803608, f 16 7005208166311201), (g 16 12605210420841684, f 16 7000684748606564),
  (g 15 1248496993987976, f 16 6996064022752295), (g 16 12364729458917836, f 16 6991344661209797),
  (g 16 12244488977955912, f 16 6986525129570248), (g 16 12124248496993988, f 16 6981603900406739),
  (g 16 12004008016032064, f 16 6976579424107747), (g 15 1188376753507014, f 16 6971450164242101),
  (g 16 11763527054108216, f 16 6966214579015593), (g 16 11643286573146292, f 16 6960871117474681),
  (g 16 11523046092184368, f 16 6955418245295671), (g 16 11402805611222444, f 16 6949854420962497),
  (g 15 1128256513026052, f 16 6944178106593162), (g 16 11162324649298596, f 16 6938387781819467),
  (g 16 11042084168336674, f 16 6932481886842832), (g 15 1092184368737475, f 15 692645890272339),
  (g 16 10801603206412826, f 16 6920317309694209), (g 16 10681362725450902, f 16 6914055590327867),
  (g 16 10561122244488979, f 16 6907672231877896), (g 16 10440881763527055, f 16 6901165731392955),
  (g 15 1032064128256513, f 16 6894534593922061), (g 16 10200400801603207, f 16 6887777332988263),
  (g 16 10080160320641283, f 15 688089247031238), (g 16 9959919839679359, f 16 6873878554561782),
  (g 16 9839679358717435, f 16 6866734107348264), (g 16 9719438877755511, f 16 6859457682665153),
  (g 16 9599198396793587, f 16 6852063417937386), (g 16 9478957915831663, f 16 6844515757780457),
  (g 15 935871743486974, f 16 6836834569657458), (g 16 9238476953907816, f 16 6829015775494693),
  (g 16 9118236472945892, f 15 682106127007826), (g 16 8997995991983968, f 16 6812965481495865),
  (g 16 8877755511022044, f 15 680472558294105), (g 15 875751503006012, f 16 6796342639924049),
  (g 16 8637274549098196, f 16 6787815395553911), (g 16 8517034068136272, f 16 6779142550094718),
  (g 16 8396793587174348, f 16 6770311156312767), (g 16 8276553106212425, f 16 6761343595447711),
  (g 16 8156312625250501, f 16 6752226671352016), (g 16 8036072144288577, f 16 6742959172784335),
  (g 16 7915831663326653, f 14 67335399107408), (g 15 779559118236473, f 16 6723967715431962),
  (g 16 7675350701402806, f 16 6714241438851706), (g 16 7555110220440882, f 16 6704373090655921),
  (g 16 7434869739478958, f 16 6694334980499602), (g 16 7314629258517034, f 16 6684127003481842),
  (g 16 7194388777555111, f 16 6673785589482862), (g 16 7074148296593187, f 16 6663260302349978),
  (g 16 6953907815631263, f 15 665258675328881), (g 16 6833667334669339, f 16 6641751734705862),
  (g 16 6713426853707415, f 15 663075426849677), (g 16 6593186372745491, f 16 6619593443681316),
  (g 16 6472945891783567, f 16 6608268349074653), (g 16 6352705410821643, f 16 6596778098420211),
  (g 16 6232464929859719, f 16 6585121831623115), (g 16 6112224448897795, f 16 6573298714880693),
  (g 16 5991983967935872, f 16 6561307940011532), (g 16 5871743486973948, f 16 6549148722537123),
  (g 16 5751503006012024, f 16 6536820305517553), (g 14 56312625250501, f 15 652432195743022),
  (g 16 5511022044088176, f 16 6511652971489778), (g 16 5390781563126252, f 15 649881266901678),
  (g 16 5270541082164328, f 16 6485800395378586), (g 16 5150300601202404, f 16 6472615525562789),
  (g 15 503006012024048, f 16 6459257468235017), (g 16 4909819639278557, f 15 644572560927941),
  (g 16 4789579158316633, f 16 6432019421115538), (g 17 46693386773547096, f 16 6418138378528352),
  (g 17 45490981963927857, f 16 6404081976132228), (g 17 44288577154308617, f 16 6389849752578272),
  (g 16 4308617234468938, f 16 6375441248163651), (g 16 4188376753507014, f 16 6360856042433475),
  (g 17 40681362725450904, f 16 6346093736502126), (g 17 39478957915831664, f 16 6331153961511377),
  (g 17 38276553106212424, f 16 6316036374704657), (g 17 37074148296593185, f 16 6300740632584546),
  (g 16 3587174348697395, f 15 628526832805611), (g 16 3466933867735471, f 16 6269615419776203),
  (g 16 3346693386773547, f 16 6253783548720165), (g 16 3226452905811623, f 16 6237772490032513),
  (g 16 3106212424849699, f 16 6221582038778551), (g 16 2985971943887776, f 16 6205212018133224),
  (g 16 2865731462925852, f 16 6188662282684577), (g 16 2745490981963928, f 16 6171932700585187),
  (g 16 2625250501002004, f 15 615502315145405), (g 15 250501002004008, f 16 6137932697478312),
  (g 17 23847695390781562, f 16 6120663859905255), (g 17 22645290581162325, f 16 6103214032363605),
  (g 17 21442885771543085, f 16 6085584044034801), (g 17 20240480961923848, f 16 6067773912869872)]

/-- Pairs of `hsokolov.table` from number 400. -/
def h4 : List (Tok × Tok) := [
  (g 16 1903807615230461, f 16 6049783665522896), (g 17 17835671342685372, f 16 6031613331525648),
  (g 17 16633266533066132, f 16 6013263018833829), (g 17 15430861723446893, f 16 5994732815223847),
  (g 17 14228456913827656, f 16 5976022833815146), (g 17 13026052104208416, f 16 5957133202383885),
  (g 17 11823647294589178, f 16 5938064089746296), (g 16 1062124248496994, f 16 5918815675555466),
  (g 17 9418837675350701, f 16 5899388159382399), (g 17 8216432865731463, f 16 5879781762430843),
  (g 17 7014028056112225, f 15 585999672641534), (g 17 5811623246492986, f 15 584005339686892),
  (g 17 4609218436873747, f 16 5819911422234015), (g 17 3406813627254509, f 16 5799590314604464),
  (g 18 22044088176352707, f 16 5779094323058204), (g 17 1002004008016032, f 16 5758422725091549),
  (f 18 2004008016032064, f 16 5737570962299495), (f 18 14028056112224449, f 16 5716541544515845),
  (f 18 26052104208416832, f 16 5695340334183836), (f 17 3807615230460922, f 16 5673961272407986),
  (f 18 50100200400801605, f 16 5652407069580132), (f 17 6212424849699399, f 16 5630681930645718),
  (f 17 7414829659318638, f 16 5608778755813888), (f 17 8617234468937876, f 16 5586702026070474),
  (f 17 9819639278557114, f 16 5564452553395736), (f 17 11022044088176353, f 16 5542030446890515),
  (f 17 12224448897795591, f 16 5519434331051407), (f 16 1342685370741483, f 16 5496668809726755),
  (f 16 1462925851703407, f 16 5473718759129981), (f 17 15831663326653306, f 16 5450611106051949),
  (f 17 17034068136272545, f 15 542733363874324), (f 17 18236472945891782, f 16 5403886982878437),
  (f 17 19438877755511022, f 15 538027177875073), (f 17 20641282565130262, f 16 5356488682030062),
  (f 15 218436873747495, f 16 5332538370226706), (f 17 23046092184368738, f 16 5308421534047412),
  (f 17 24248496993987975, f 16 5284138861469453), (f 16 2545090180360721, f 16 5259691080312263),
  (f 16 2665330661322645, f 16 5235094863004963), (f 16 2785571142284569, f 16 5210303140996257),
  (f 16 2905811623246493, f 16 5185380315071051), (f 16 3026052104208417, f 16 5160279221634646),
  (f 17 31462925851703405, f 16 5135019854601222), (f 17 32665330661322645, f 16 5109597265165355),
  (f 17 33867735470941884, f 16 5084018879519004), (f 17 35070140280561124, f 16 5058277320319652),
  (f 16 3627254509018036, f 16 5032377587232574), (f 15 374749498997996, f 16 5006321040982692),
  (f 16 3867735470941884, f 17 49801080417312493), (f 17 39879759519038077, f 16 4953739637446756),
  (f 17 41082164328657317, f 17 49272167136226863), (f 16 4228456913827655, f 16 4900540169665926),
  (f 16 4348697394789579, f 17 48737184978492226), (f 16 4468937875751503, f 17 48467342946351316),
  (f 16 4589178356713427, f 16 4819603708243062), (f 16 4709418837675351, f 16 4792321996705456),
  (f 17 48296593186372744, f 16 4764893592065359), (f 17 49498997995991983, f 17 47373136077751365),
  (f 16 5070140280561122, f 17 47095891987996913), (f 16 5190380761523046, f 17 46817172505455895),
  (f 15 531062124248497, f 17 46537030500176857), (f 16 5430861723446894, f 16 4625545129255066),
  (f 16 5551102204408818, f 16 4597240919741077), (f 16 5671342685370742, f 17 45687946834146786),
  (f 16 5791583166332666, f 17 45402083936350635), (f 15 591182364729459, f 17 45114810077274825),
  (f 16 6032064128256514, f 16 4482615830457812), (f 16 6152304609218436, f 17 44536117520615526),
  (f 15 627254509018036, f 16 4424473956474676), (f 16 6392785571142284, f 15 439519907688677),
  (f 16 6513026052104208, f 16 4365787508161403), (f 16 6633266533066132, f 16 4336243507077945),
  (f 16 6753507014028056, f 16 4306565654122903), (f 15 687374749498998, f 17 42767572224163547),
  (f 16 6993987975951904, f 14 42468173743722), (f 16 7114228456913828, f 16 4216748161485093),
  (f 16 7234468937875751, f 16 4186553650206245), (f 16 7354709418837675, f 16 4156230319795799),
  (f 16 7474949899799599, f 16 4125781619516264), (f 16 7595190380761523, f 17 40952060071877117),
  (f 16 7715430861723447, f 17 40645068169968523), (f 16 7835671342685371, f 16 4033684226872071),
  (f 16 7955911823647295, f 16 4002760465990931), (f 16 8076152304609219, f 16 3971684038976671),
  (f 16 8196392785571143, f 16 3940499756019873), (f 16 8316633266533067, f 16 3909197094367714),
  (f 15 843687374749499, f 16 3877777167866217), (f 16 8557114228456913, f 16 3846241082472385),
  (f 16 8677354709418837, f 16 3814589944260008), (f 16 8797595190380761, f 16 3782824866945934),
  (f 16 8917835671342685, f 16 3750946955844402), (f 16 9038076152304609, f 17 37189573238102347),
  (f 16 9158316633266533, f 17 36868570754947394), (f 16 9278557114228457, f 16 3654647318258799),
  (f 16 9398797595190381, f 16 3622329162853804), (f 16 9519038076152304, f 16 3589903707650586),
  (f 16 9639278557114228, f 15 355737205260959), (f 16 9759519038076152, f 17 35247353024992245),
  (f 16 9879759519038076, f 17 34920066255224697), (n 1, f 16 3459150912836859)]

/-- The pairs of `hsokolov.table`. -/
def hPairs : List (Tok × Tok) :=
  h0 ++
  h1 ++
  h2 ++
  h3 ++
  h4

end Shipped
end QED
