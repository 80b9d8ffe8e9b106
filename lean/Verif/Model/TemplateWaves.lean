import Verif.Model.TemplateFiles

/-!
The wavelengths in the `FLUX` tables of the two template files in `src/kcorrect/data/templates`, every value of the column `wave` in units of
2⁻¹⁴ Å (the files hold float32 numbers, which are whole in this unit).  Written by a script from the files.
-/

namespace KC

/-- rows 0 to 99 of `kcorrect-default-v4.fits` -/
def defaultUnits0 : List Nat :=
  [9834620, 9843063, 9851514, 9859972, 9868437, 9876909, 9885389, 9893876, 9902370, 9910872, 9919381, 9927897, 9936420, 9944951, 9953489, 9962035, 9970588, 9979148, 9987715, 9996290, 10004873, 10013462, 10022059, 10030663, 10039275, 10047894, 10056521, 10065155, 10073796, 10082445, 10091101, 10099765, 10108436, 10117114, 10125800, 10134494, 10143195, 10151903, 10160619, 10169342, 10178073, 10186811, 10195557, 10204310, 10213071, 10221839, 10230615, 10239399, 10248190, 10256988, 10265794, 10274608, 10283429, 10292258, 10301094, 10309938, 10318790, 10327649, 10336515, 10345390, 10354272, 10363161, 10372058, 10380963, 10389876, 10398796, 10407724, 10416659, 10425602, 10434553, 10443512, 10452478, 10461452, 10470433, 10479423, 10488420, 10497424, 10506437, 10515457, 10524485, 10533521, 10542564, 10551615, 10560674, 10569741, 10578816, 10587898, 10596988, 10606086, 10615192, 10624305, 10633427, 10642556, 10651693, 10660838, 10669991, 10679152, 10688320, 10697496, 10706681]

/-- rows 100 to 199 of `kcorrect-default-v4.fits` -/
def defaultUnits1 : List Nat :=
  [10715873, 10725073, 10734281, 10743497, 10752720, 10761952, 10771192, 10780439, 10789694, 10798958, 10808229, 10817509, 10826796, 10836091, 10845394, 10854706, 10864025, 10873352, 10882687, 10892030, 10901382, 10910741, 10920108, 10929484, 10938867, 10948259, 10957658, 10967066, 10976481, 10985905, 10995337, 11004777, 11014225, 11023681, 11033145, 11042618, 11052098, 11061587, 11071084, 11080589, 11090102, 11099623, 11109153, 11118691, 11128236, 11137790, 11147353, 11156923, 11166502, 11176089, 11185684, 11195287, 11204899, 11214519, 11224147, 11233783, 11243428, 11253081, 11262742, 11272412, 11282089, 11291776, 11301470, 11311173, 11320884, 11330603, 11340331, 11350067, 11359812, 11369565, 11379326, 11389096, 11398874, 11408660, 11418455, 11428258, 11438070, 11447890, 11457718, 11467555, 11477401, 11487254, 11497117, 11506987, 11516867, 11526754, 11536651, 11546555, 11556468, 11566390, 11576320, 11586259, 11596206, 11606162, 11616127, 11626099, 11636081, 11646071, 11656070, 11666077]

/-- rows 200 to 299 of `kcorrect-default-v4.fits` -/
def defaultUnits2 : List Nat :=
  [11676093, 11686117, 11696150, 11706192, 11716242, 11726301, 11736368, 11746445, 11756529, 11766623, 11776725, 11786836, 11796955, 11807083, 11817220, 11827366, 11837520, 11847683, 11857855, 11868035, 11878225, 11888423, 11898629, 11908845, 11919069, 11929302, 11939544, 11949794, 11960054, 11970322, 11980599, 11990885, 12001179, 12011483, 12021795, 12032117, 12042447, 12052786, 12063133, 12073490, 12083856, 12094230, 12104614, 12115006, 12125407, 12135817, 12146236, 12156664, 12167101, 12177547, 12188002, 12198466, 12208939, 12219421, 12229912, 12240412, 12250921, 12261439, 12271966, 12282502, 12293047, 12303601, 12314164, 12324736, 12335317, 12345908, 12356507, 12367116, 12377733, 12388360, 12398996, 12409641, 12420295, 12430959, 12441631, 12452313, 12463004, 12473704, 12484413, 12495131, 12505859, 12516596, 12527342, 12538097, 12548861, 12559635, 12570418, 12581210, 12592012, 12602823, 12613643, 12624472, 12635311, 12646159, 12657016, 12667882, 12678758, 12689643, 12700538, 12711442]

/-- rows 300 to 399 of `kcorrect-default-v4.fits` -/
def defaultUnits3 : List Nat :=
  [12722355, 12733278, 12744210, 12755151, 12766102, 12777063, 12788032, 12799011, 12810000, 12820998, 12832005, 12843022, 12854048, 12865084, 12876129, 12887184, 12898248, 12909322, 12920405, 12931497, 12942600, 12953711, 12964833, 12975964, 12987104, 12998254, 13009413, 13020583, 13031761, 13042950, 13054148, 13065355, 13076572, 13087799, 13099035, 13110281, 13121537, 13132803, 13144078, 13155362, 13166657, 13177961, 13189275, 13200598, 13211932, 13223275, 13234627, 13245990, 13257362, 13268744, 13280136, 13291537, 13302949, 13314370, 13325801, 13337241, 13348692, 13360152, 13371623, 13383103, 13394593, 13406092, 13417602, 13429122, 13440651, 13452191, 13463740, 13475299, 13486868, 13498447, 13510036, 13521635, 13533244, 13544863, 13556492, 13568130, 13579779, 13591438, 13603107, 13614786, 13626475, 13638173, 13649882, 13661601, 13673330, 13685070, 13696819, 13708578, 13720347, 13732127, 13743916, 13755716, 13767526, 13779346, 13791176, 13803016, 13814867, 13826728, 13838598, 13850479]

/-- rows 400 to 499 of `kcorrect-default-v4.fits` -/
def defaultUnits4 : List Nat :=
  [13862371, 13874272, 13886184, 13898106, 13910038, 13921980, 13933933, 13945895, 13957869, 13969852, 13981846, 13993850, 14005864, 14017889, 14029924, 14041969, 14054024, 14066090, 14078167, 14090253, 14102350, 14114458, 14126576, 14138704, 14150843, 14162992, 14175151, 14187321, 14199502, 14211692, 14223894, 14236106, 14248328, 14260561, 14272804, 14285058, 14297322, 14309597, 14321882, 14334178, 14346485, 14358802, 14371129, 14383468, 14395816, 14408176, 14420546, 14432926, 14445318, 14457720, 14470132, 14482555, 14494989, 14507434, 14519889, 14532355, 14544832, 14557319, 14569817, 14582326, 14594845, 14607376, 14619917, 14632468, 14645031, 14657604, 14670189, 14682784, 14695389, 14708006, 14720633, 14733272, 14745921, 14758581, 14771252, 14783933, 14796626, 14809329, 14822044, 14834769, 14847505, 14860253, 14873011, 14885780, 14898560, 14911351, 14924153, 14936966, 14949790, 14962625, 14975471, 14988328, 15001196, 15014075, 15026966, 15039867, 15052779, 15065703, 15078637, 15091583]

/-- rows 500 to 599 of `kcorrect-default-v4.fits` -/
def defaultUnits5 : List Nat :=
  [15104540, 15117507, 15130486, 15143477, 15156478, 15169490, 15182514, 15195549, 15208595, 15221652, 15234720, 15247800, 15260891, 15273993, 15287106, 15300231, 15313367, 15326514, 15339673, 15352842, 15366023, 15379216, 15392419, 15405634, 15418861, 15432099, 15445348, 15458608, 15471880, 15485163, 15498458, 15511764, 15525081, 15538410, 15551751, 15565103, 15578466, 15591841, 15605227, 15618625, 15632034, 15645455, 15658887, 15672331, 15685786, 15699253, 15712731, 15726221, 15739723, 15753236, 15766761, 15780297, 15793845, 15807405, 15820976, 15834559, 15848154, 15861760, 15875378, 15889008, 15902649, 15916302, 15929967, 15943644, 15957332, 15971032, 15984744, 15998467, 16012203, 16025950, 16039709, 16053480, 16067262, 16081057, 16094863, 16108681, 16122511, 16136353, 16150207, 16164072, 16177950, 16191839, 16205740, 16219654, 16233579, 16247516, 16261465, 16275427, 16289400, 16303385, 16317382, 16331391, 16345412, 16359445, 16373491, 16387548, 16401617, 16415699, 16429792, 16443898]

/-- rows 600 to 699 of `kcorrect-default-v4.fits` -/
def defaultUnits6 : List Nat :=
  [16458016, 16472146, 16486288, 16500442, 16514608, 16528787, 16542977, 16557180, 16571395, 16585622, 16599862, 16614114, 16628377, 16642654, 16656942, 16671243, 16685556, 16699881, 16714218, 16728568, 16742930, 16757305, 16771692, 16786092, 16800502, 16814926, 16829362, 16843812, 16858272, 16872746, 16887232, 16901730, 16916242, 16930764, 16945300, 16959848, 16974410, 16988982, 17003568, 17018166, 17032778, 17047400, 17062036, 17076686, 17091346, 17106020, 17120706, 17135404, 17150116, 17164840, 17179578, 17194326, 17209088, 17223864, 17238650, 17253450, 17268264, 17283090, 17297928, 17312778, 17327642, 17342518, 17357408, 17372310, 17387224, 17402152, 17417092, 17432046, 17447012, 17461992, 17476984, 17491988, 17507006, 17522036, 17537080, 17552136, 17567204, 17582288, 17597382, 17612490, 17627612, 17642746, 17657892, 17673052, 17688226, 17703412, 17718610, 17733822, 17749048, 17764286, 17779538, 17794802, 17810080, 17825370, 17840674, 17855992, 17871322, 17886664, 17902022, 17917390]

/-- rows 700 to 799 of `kcorrect-default-v4.fits` -/
def defaultUnits7 : List Nat :=
  [17932774, 17948170, 17963578, 17979002, 17994436, 18009886, 18025348, 18040824, 18056312, 18071814, 18087330, 18102858, 18118400, 18133956, 18149524, 18165108, 18180702, 18196312, 18211934, 18227570, 18243218, 18258882, 18274558, 18290246, 18305950, 18321666, 18337396, 18353140, 18368896, 18384666, 18400450, 18416248, 18432060, 18447884, 18463722, 18479574, 18495440, 18511318, 18527212, 18543118, 18559038, 18574972, 18590918, 18606880, 18622854, 18638844, 18654846, 18670862, 18686892, 18702934, 18718992, 18735062, 18751148, 18767246, 18783358, 18799486, 18815626, 18831780, 18847948, 18864128, 18880324, 18896534, 18912758, 18928994, 18945246, 18961512, 18977790, 18994084, 19010392, 19026712, 19043048, 19059396, 19075760, 19092138, 19108528, 19124934, 19141354, 19157788, 19174236, 19190698, 19207174, 19223664, 19240168, 19256686, 19273218, 19289766, 19306326, 19322902, 19339492, 19356096, 19372714, 19389346, 19405992, 19422652, 19439328, 19456018, 19472722, 19489440, 19506172, 19522918]

/-- rows 800 to 899 of `kcorrect-default-v4.fits` -/
def defaultUnits8 : List Nat :=
  [19539680, 19556456, 19573246, 19590050, 19606870, 19623702, 19640550, 19657412, 19674290, 19691180, 19708086, 19725006, 19741940, 19758890, 19775854, 19792832, 19809826, 19826832, 19843856, 19860892, 19877944, 19895010, 19912090, 19929186, 19946296, 19963420, 19980560, 19997714, 20014882, 20032066, 20049264, 20066478, 20083706, 20100948, 20118206, 20135478, 20152766, 20170068, 20187384, 20204716, 20222062, 20239424, 20256800, 20274192, 20291598, 20309018, 20326454, 20343906, 20361372, 20378854, 20396350, 20413860, 20431386, 20448928, 20466484, 20484056, 20501642, 20519244, 20536860, 20554492, 20572138, 20589800, 20607478, 20625170, 20642878, 20660600, 20678338, 20696092, 20713860, 20731644, 20749442, 20767258, 20785086, 20802932, 20820792, 20838668, 20856558, 20874464, 20892386, 20910322, 20928276, 20946242, 20964226, 20982224, 21000238, 21018268, 21036314, 21054374, 21072450, 21090542, 21108648, 21126772, 21144910, 21163064, 21181232, 21199418, 21217618, 21235834, 21254066, 21272314]

/-- rows 900 to 999 of `kcorrect-default-v4.fits` -/
def defaultUnits9 : List Nat :=
  [21290578, 21308856, 21327150, 21345460, 21363786, 21382128, 21400486, 21418860, 21437248, 21455652, 21474074, 21492510, 21510962, 21529430, 21547914, 21566414, 21584930, 21603460, 21622008, 21640572, 21659152, 21677746, 21696358, 21714984, 21733628, 21752288, 21770962, 21789654, 21808362, 21827084, 21845824, 21864580, 21883352, 21902138, 21920942, 21939762, 21958600, 21977452, 21996320, 22015204, 22034106, 22053022, 22071956, 22090906, 22109872, 22128854, 22147852, 22166868, 22185898, 22204946, 22224010, 22243090, 22262188, 22281300, 22300430, 22319576, 22338738, 22357916, 22377112, 22396324, 22415552, 22434796, 22454058, 22473334, 22492630, 22511940, 22531268, 22550612, 22569972, 22589350, 22608744, 22628154, 22647582, 22667024, 22686486, 22705962, 22725456, 22744968, 22764496, 22784040, 22803600, 22823178, 22842772, 22862384, 22882012, 22901658, 22921320, 22940998, 22960694, 22980408, 23000136, 23019884, 23039648, 23059428, 23079224, 23099040, 23118870, 23138720, 23158584, 23178468]

/-- rows 1000 to 1099 of `kcorrect-default-v4.fits` -/
def defaultUnits10 : List Nat :=
  [23198368, 23218284, 23238218, 23258168, 23278136, 23298122, 23318124, 23338144, 23358180, 23378234, 23398306, 23418394, 23438500, 23458624, 23478764, 23498920, 23519096, 23539288, 23559498, 23579724, 23599968, 23620230, 23640508, 23660806, 23681118, 23701450, 23721798, 23742164, 23762548, 23782950, 23803368, 23823804, 23844258, 23864730, 23885218, 23905724, 23926248, 23946790, 23967350, 23987926, 24008522, 24029134, 24049764, 24070412, 24091076, 24111760, 24132462, 24153180, 24173916, 24194670, 24215442, 24236232, 24257040, 24277866, 24298710, 24319572, 24340450, 24361348, 24382262, 24403196, 24424148, 24445116, 24466104, 24487108, 24508132, 24529174, 24550232, 24571310, 24592406, 24613520, 24634650, 24655800, 24676968, 24698154, 24719360, 24740582, 24761822, 24783082, 24804360, 24825654, 24846968, 24868300, 24889652, 24911020, 24932406, 24953812, 24975236, 24996678, 25018140, 25039618, 25061116, 25082632, 25104166, 25125720, 25147290, 25168880, 25190490, 25212116, 25233762, 25255426]

/-- rows 1100 to 1199 of `kcorrect-default-v4.fits` -/
def defaultUnits11 : List Nat :=
  [25277110, 25298810, 25320530, 25342270, 25364026, 25385802, 25407598, 25429412, 25451244, 25473094, 25494964, 25516852, 25538760, 25560686, 25582630, 25604594, 25626578, 25648578, 25670600, 25692638, 25714696, 25736774, 25758870, 25780984, 25803118, 25825272, 25847444, 25869636, 25891846, 25914074, 25936322, 25958590, 25980876, 26003182, 26025508, 26047852, 26070214, 26092596, 26114998, 26137418, 26159860, 26182318, 26204796, 26227294, 26249812, 26272348, 26294904, 26317480, 26340074, 26362688, 26385322, 26407974, 26430648, 26453340, 26476050, 26498782, 26521532, 26544302, 26567090, 26589900, 26612728, 26635576, 26658444, 26681332, 26704238, 26727166, 26750112, 26773078, 26796064, 26819068, 26842094, 26865140, 26888204, 26911288, 26934394, 26957518, 26980662, 27003826, 27027010, 27050214, 27073438, 27096680, 27119944, 27143228, 27166532, 27189856, 27213198, 27236562, 27259946, 27283350, 27306774, 27330218, 27353682, 27377166, 27400670, 27424196, 27447740, 27471306, 27494890, 27518496]

/-- rows 1200 to 1299 of `kcorrect-default-v4.fits` -/
def defaultUnits12 : List Nat :=
  [27542122, 27565768, 27589434, 27613120, 27636828, 27660556, 27684302, 27708070, 27731860, 27755668, 27779498, 27803348, 27827218, 27851108, 27875020, 27898952, 27922904, 27946878, 27970870, 27994886, 28018920, 28042976, 28067052, 28091148, 28115266, 28139404, 28163562, 28187742, 28211942, 28236164, 28260406, 28284668, 28308952, 28333256, 28357582, 28381928, 28406294, 28430682, 28455092, 28479522, 28503972, 28528444, 28552936, 28577450, 28601986, 28626542, 28651118, 28675716, 28700336, 28724976, 28749638, 28774320, 28799024, 28823750, 28848496, 28873264, 28898052, 28922864, 28947694, 28972548, 28997422, 29022318, 29047234, 29072172, 29097132, 29122112, 29147116, 29172140, 29197184, 29222252, 29247340, 29272450, 29297582, 29322736, 29347910, 29373106, 29398324, 29423564, 29448826, 29474108, 29499414, 29524740, 29550088, 29575458, 29600850, 29626264, 29651698, 29677156, 29702636, 29728136, 29753658, 29779204, 29804770, 29830358, 29855970, 29881602, 29907256, 29932934, 29958632, 29984352]

/-- rows 1300 to 1399 of `kcorrect-default-v4.fits` -/
def defaultUnits13 : List Nat :=
  [30010096, 30035860, 30061648, 30087456, 30113288, 30139142, 30165018, 30190916, 30216836, 30242778, 30268742, 30294730, 30320738, 30346770, 30372824, 30398900, 30425000, 30451120, 30477264, 30503430, 30529618, 30555830, 30582062, 30608318, 30634598, 30660898, 30687222, 30713568, 30739936, 30766328, 30792742, 30819180, 30845640, 30872122, 30898626, 30925154, 30951704, 30978278, 31004874, 31031494, 31058134, 31084800, 31111488, 31138198, 31164932, 31191688, 31218466, 31245270, 31272094, 31298942, 31325814, 31352708, 31379626, 31406568, 31433530, 31460518, 31487528, 31514562, 31541618, 31568698, 31595800, 31622928, 31650076, 31677250, 31704446, 31731666, 31758908, 31786174, 31813464, 31840778, 31868114, 31895474, 31922858, 31950266, 31977696, 32005150, 32032628, 32060130, 32087654, 32115202, 32142774, 32170370, 32197990, 32225634, 32253300, 32280992, 32308706, 32336444, 32364206, 32391992, 32419802, 32447636, 32475494, 32503376, 32531280, 32559210, 32587164, 32615142, 32643142, 32671168]

/-- rows 1400 to 1499 of `kcorrect-default-v4.fits` -/
def defaultUnits14 : List Nat :=
  [32699218, 32727292, 32755390, 32783510, 32811656, 32839828, 32868022, 32896240, 32924482, 32952750, 32981042, 33009356, 33037696, 33066060, 33094450, 33122862, 33151300, 33179762, 33208248, 33236758, 33265294, 33293854, 33322438, 33351046, 33379680, 33408338, 33437020, 33465726, 33494458, 33523214, 33551996, 33580800, 33609632, 33638488, 33667368, 33696272, 33725200, 33754156, 33783136, 33812140, 33841168, 33870224, 33899304, 33928404, 33957536, 33986688, 34015868, 34045072, 34074300, 34103556, 34132836, 34162140, 34191468, 34220824, 34250204, 34279608, 34309040, 34338496, 34367976, 34397484, 34427012, 34456572, 34486152, 34515760, 34545396, 34575052, 34604736, 34634448, 34664180, 34693944, 34723728, 34753540, 34783376, 34813240, 34843128, 34873044, 34902984, 34932948, 34962940, 34992956, 35023000, 35053068, 35083164, 35113284, 35143432, 35173604, 35203800, 35234024, 35264276, 35294552, 35324852, 35355180, 35385532, 35415912, 35446320, 35476752, 35507208, 35537696, 35568204, 35598740]

/-- rows 1500 to 1599 of `kcorrect-default-v4.fits` -/
def defaultUnits15 : List Nat :=
  [35629304, 35659896, 35690508, 35721152, 35751820, 35782512, 35813236, 35843980, 35874756, 35905556, 35936380, 35967236, 35998112, 36029020, 36059952, 36090912, 36121896, 36152908, 36183948, 36215012, 36246104, 36277224, 36308368, 36339540, 36370740, 36401968, 36433220, 36464500, 36495804, 36527136, 36558496, 36589884, 36621300, 36652740, 36684208, 36715704, 36747224, 36778772, 36810348, 36841952, 36873584, 36905240, 36936924, 36968636, 37000376, 37032144, 37063936, 37095756, 37127604, 37159480, 37191384, 37223316, 37255272, 37287256, 37319272, 37351312, 37383376, 37415472, 37447596, 37479748, 37511924, 37544128, 37576364, 37608624, 37640912, 37673228, 37705572, 37737944, 37770344, 37802772, 37835228, 37867708, 37900220, 37932760, 37965328, 37997920, 38030544, 38063196, 38095872, 38128580, 38161316, 38194080, 38226868, 38259688, 38292536, 38325412, 38358316, 38391248, 38424208, 38457196, 38490216, 38523260, 38556336, 38589436, 38622568, 38655728, 38688912, 38722128, 38755376, 38788648]

/-- rows 1600 to 1699 of `kcorrect-default-v4.fits` -/
def defaultUnits16 : List Nat :=
  [38821948, 38855280, 38888640, 38922024, 38955440, 38988888, 39022360, 39055864, 39089392, 39122952, 39156544, 39190160, 39223804, 39257480, 39291184, 39324920, 39358680, 39392472, 39426292, 39460140, 39494020, 39527928, 39561864, 39595828, 39629824, 39663848, 39697900, 39731980, 39766092, 39800236, 39834404, 39868604, 39902832, 39937092, 39971380, 40005696, 40040044, 40074420, 40108824, 40143260, 40177724, 40212216, 40246740, 40281296, 40315880, 40350492, 40385132, 40419808, 40454508, 40489240, 40524000, 40558792, 40593616, 40628468, 40663348, 40698260, 40733200, 40768172, 40803172, 40838204, 40873264, 40908356, 40943476, 40978628, 41013812, 41049024, 41084264, 41119536, 41154840, 41190172, 41225536, 41260932, 41296356, 41331808, 41367296, 41402812, 41438356, 41473932, 41509540, 41545176, 41580848, 41616544, 41652276, 41688036, 41723824, 41759648, 41795500, 41831384, 41867296, 41903240, 41939216, 41975224, 42011260, 42047328, 42083428, 42119560, 42155720, 42191912, 42228136, 42264392]

/-- rows 1700 to 1799 of `kcorrect-default-v4.fits` -/
def defaultUnits17 : List Nat :=
  [42300676, 42336996, 42373344, 42409720, 42446132, 42482572, 42519048, 42555552, 42592088, 42628652, 42665252, 42701884, 42738544, 42775236, 42811960, 42848716, 42885504, 42922324, 42959172, 42996056, 43032968, 43069916, 43106892, 43143900, 43180944, 43218016, 43255120, 43292256, 43329424, 43366624, 43403856, 43441120, 43478416, 43515744, 43553104, 43590496, 43627920, 43665376, 43702864, 43740388, 43777940, 43815524, 43853140, 43890792, 43928472, 43966188, 44003936, 44041716, 44079524, 44117368, 44155248, 44193156, 44231096, 44269072, 44307080, 44345116, 44383188, 44421296, 44459432, 44497604, 44535804, 44574040, 44612308, 44650612, 44688944, 44727312, 44765712, 44804148, 44842612, 44881112, 44919644, 44958208, 44996808, 45035440, 45074104, 45112804, 45151532, 45190300, 45229096, 45267928, 45306792, 45345688, 45384620, 45423584, 45462584, 45501616, 45540680, 45579780, 45618912, 45658076, 45697276, 45736508, 45775776, 45815076, 45854408, 45893776, 45933180, 45972616, 46012084, 46051588]

/-- rows 1800 to 1899 of `kcorrect-default-v4.fits` -/
def defaultUnits18 : List Nat :=
  [46091124, 46130696, 46170300, 46209940, 46249612, 46289320, 46329060, 46368836, 46408648, 46448492, 46488368, 46528280, 46568228, 46608208, 46648224, 46688272, 46728356, 46768476, 46808628, 46848816, 46889036, 46929292, 46969584, 47009908, 47050268, 47090664, 47131092, 47171556, 47212056, 47252588, 47293156, 47333760, 47374396, 47415072, 47455780, 47496520, 47537300, 47578112, 47618960, 47659844, 47700760, 47741712, 47782700, 47823724, 47864784, 47905876, 47947008, 47988172, 48029372, 48070608, 48111876, 48153184, 48194524, 48235900, 48277312, 48318760, 48360244, 48401764, 48443320, 48484912, 48526536, 48568200, 48609896, 48651632, 48693400, 48735204, 48777048, 48818924, 48860836, 48902784, 48944772, 48986792, 49028848, 49070940, 49113072, 49155236, 49197440, 49239676, 49281952, 49324260, 49366608, 49408992, 49451412, 49493868, 49536360, 49578888, 49621456, 49664056, 49706696, 49749372, 49792084, 49834832, 49877616, 49920440, 49963296, 50006192, 50049124, 50092096, 50135100, 50178144]

/-- rows 1900 to 1999 of `kcorrect-default-v4.fits` -/
def defaultUnits19 : List Nat :=
  [50221224, 50264340, 50307496, 50350684, 50393912, 50437180, 50480480, 50523820, 50567200, 50610612, 50654064, 50697552, 50741076, 50784640, 50828240, 50871880, 50915556, 50959268, 51003020, 51046808, 51090632, 51134496, 51178400, 51222336, 51266312, 51310328, 51354380, 51398468, 51442596, 51486764, 51530968, 51575208, 51619488, 51663804, 51708160, 51752552, 51796984, 51841456, 51885964, 51930508, 51975096, 52019716, 52064380, 52109076, 52153816, 52198592, 52243408, 52288260, 52333152, 52378080, 52423048, 52468056, 52513104, 52558188, 52603312, 52648472, 52693676, 52738916, 52784192, 52829508, 52874868, 52920260, 52965696, 53011168, 53056680, 53102232, 53147824, 53193452, 53239120, 53284828, 53330576, 53376364, 53422188, 53468056, 53513960, 53559904, 53605888, 53651908, 53697972, 53744072, 53790216, 53836396, 53882616, 53928876, 53975176, 54021516, 54067896, 54114316, 54160776, 54207276, 54253816, 54300392, 54347012, 54393672, 54440372, 54487112, 54533888, 54580708, 54627568, 54674468]

/-- rows 2000 to 2099 of `kcorrect-default-v4.fits` -/
def defaultUnits20 : List Nat :=
  [54721408, 54768392, 54815412, 54862472, 54909576, 54956716, 55003900, 55051124, 55098384, 55145692, 55193036, 55240420, 55287848, 55335312, 55382820, 55430368, 55477960, 55525588, 55573260, 55620972, 55668724, 55716520, 55764352, 55812228, 55860148, 55908104, 55956104, 56004144, 56052228, 56100352, 56148516, 56196720, 56244968, 56293256, 56341588, 56389960, 56438372, 56486824, 56535324, 56583860, 56632440, 56681060, 56729724, 56778428, 56827176, 56875964, 56924796, 56973668, 57022580, 57071536, 57120536, 57169576, 57218660, 57267784, 57316948, 57366160, 57415408, 57464704, 57514040, 57563416, 57612836, 57662300, 57711808, 57761356, 57810944, 57860576, 57910252, 57959972, 58009732, 58059536, 58109384, 58159272, 58209204, 58259180, 58309196, 58359260, 58409364, 58459508, 58509700, 58559932, 58610208, 58660528, 58710892, 58761296, 58811744, 58862236, 58912772, 58963352, 59013976, 59064640, 59115348, 59166104, 59216900, 59267740, 59318624, 59369552, 59420524, 59471536, 59522596, 59573700]

/-- rows 2100 to 2199 of `kcorrect-default-v4.fits` -/
def defaultUnits21 : List Nat :=
  [59624844, 59676036, 59727268, 59778548, 59829872, 59881236, 59932648, 59984100, 60035600, 60087144, 60138732, 60190364, 60242040, 60293760, 60345524, 60397332, 60449188, 60501084, 60553028, 60605016, 60657048, 60709124, 60761244, 60813412, 60865620, 60917876, 60970176, 61022524, 61074912, 61127348, 61179828, 61232356, 61284924, 61337540, 61390200, 61442908, 61495660, 61548456, 61601296, 61654184, 61707116, 61760096, 61813120, 61866188, 61919304, 61972464, 62025668, 62078920, 62132216, 62185560, 62238948, 62292384, 62345864, 62399392, 62452964, 62506584, 62560248, 62613956, 62667716, 62721516, 62775368, 62829260, 62883204, 62937192, 62991224, 63045304, 63099432, 63153604, 63207824, 63262092, 63316404, 63370764, 63425172, 63479624, 63534124, 63588672, 63643264, 63697904, 63752592, 63807328, 63862108, 63916936, 63971812, 64026736, 64081704, 64136720, 64191784, 64246896, 64302056, 64357260, 64412512, 64467816, 64523164, 64578560, 64634004, 64689492, 64745032, 64800620, 64856252, 64911932]

/-- rows 2200 to 2299 of `kcorrect-default-v4.fits` -/
def defaultUnits22 : List Nat :=
  [64967664, 65023440, 65079268, 65135140, 65191060, 65247028, 65303048, 65359112, 65415228, 65471388, 65527596, 65583856, 65640164, 65696516, 65752920, 65809372, 65865872, 65922420, 65979016, 66035664, 66092356, 66149100, 66205892, 66262732, 66319624, 66376560, 66433548, 66490584, 66547668, 66604804, 66661984, 66719216, 66776500, 66833828, 66891208, 66948636, 67006116, 67063644, 67121224, 67178848, 67236520, 67294248, 67352024, 67409848, 67467720, 67525648, 67583616, 67641640, 67699712, 67757840, 67816008, 67874232, 67932504, 67990832, 68049200, 68107624, 68166096, 68224624, 68283192, 68341816, 68400496, 68459216, 68517992, 68576816, 68635696, 68694624, 68753600, 68812624, 68871704, 68930832, 68990016, 69049248, 69108528, 69167856, 69227240, 69286680, 69346160, 69405696, 69465288, 69524928, 69584616, 69644360, 69704152, 69763992, 69823888, 69883832, 69943832, 70003880, 70063984, 70124136, 70184344, 70244600, 70304904, 70365264, 70425680, 70486144, 70546656, 70607224, 70667840, 70728512]

/-- rows 2300 to 2399 of `kcorrect-default-v4.fits` -/
def defaultUnits23 : List Nat :=
  [70789240, 70850016, 70910840, 70971720, 71032656, 71093640, 71154672, 71215760, 71276904, 71338096, 71399344, 71460648, 71522000, 71583400, 71644856, 71706368, 71767928, 71829544, 71891216, 71952936, 72014712, 72076544, 72138424, 72200352, 72262344, 72324384, 72386472, 72448624, 72510824, 72573072, 72635384, 72697744, 72760160, 72822624, 72885144, 72947720, 73010352, 73073032, 73135768, 73198560, 73261400, 73324304, 73387256, 73450256, 73513320, 73576432, 73639600, 73702824, 73766104, 73829432, 73892816, 73956256, 74019752, 74083304, 74146904, 74210560, 74274272, 74338040, 74401864, 74465744, 74529672, 74593664, 74657704, 74721800, 74785952, 74850160, 74914424, 74978736, 75043112, 75107536, 75172024, 75236560, 75301152, 75365800, 75430504, 75495264, 75560080, 75624952, 75689880, 75754864, 75819904, 75885000, 75950144, 76015352, 76080616, 76145936, 76211312, 76276736, 76342224, 76407768, 76473368, 76539024, 76604736, 76670504, 76736328, 76802208, 76868152, 76934144, 77000192, 77066304]

/-- rows 2400 to 2499 of `kcorrect-default-v4.fits` -/
def defaultUnits24 : List Nat :=
  [77132464, 77198688, 77264968, 77331304, 77397696, 77464144, 77530648, 77597216, 77663832, 77730512, 77797248, 77864040, 77930888, 77997792, 78064760, 78131776, 78198856, 78266000, 78333192, 78400440, 78467752, 78535120, 78602544, 78670032, 78737568, 78805168, 78872832, 78940544, 79008320, 79076152, 79144040, 79211992, 79279992, 79348064, 79416184, 79484368, 79552608, 79620904, 79689264, 79757680, 79826152, 79894688, 79963280, 80031936, 80100648, 80169416, 80238240, 80307128, 80376080, 80445088, 80514152, 80583272, 80652456, 80721704, 80791008, 80860368, 80929792, 80999272, 81068816, 81138416, 81208072, 81277792, 81347576, 81417416, 81487312, 81557272, 81627296, 81697376, 81767520, 81837720, 81907976, 81978304, 82048680, 82119128, 82189624, 82260192, 82330816, 82401496, 82472240, 82543048, 82613912, 82684840, 82755832, 82826880, 82897992, 82969160, 83040392, 83111688, 83183040, 83254456, 83325936, 83397472, 83469080, 83540736, 83612464, 83684248, 83756096, 83828000, 83899968, 83972000]

/-- rows 2500 to 2599 of `kcorrect-default-v4.fits` -/
def defaultUnits25 : List Nat :=
  [84044096, 84116248, 84188464, 84260744, 84333088, 84405488, 84477960, 84550488, 84623072, 84695728, 84768440, 84841216, 84914056, 84986960, 85059928, 85132952, 85206048, 85279200, 85352416, 85425688, 85499032, 85572440, 85645904, 85719432, 85793032, 85866688, 85940408, 86014192, 86088040, 86161944, 86235920, 86309960, 86384056, 86458224, 86532448, 86606744, 86681096, 86755520, 86830000, 86904544, 86979160, 87053832, 87128576, 87203376, 87278240, 87353176, 87428176, 87503232, 87578360, 87653544, 87728800, 87804120, 87879504, 87954952, 88030464, 88106040, 88181688, 88257392, 88333168, 88409000, 88484904, 88560872, 88636904, 88713008, 88789168, 88865400, 88941696, 89018056, 89094480, 89170968, 89247528, 89324152, 89400840, 89477592, 89554416, 89631296, 89708248, 89785272, 89862352, 89939504, 90016720, 90094008, 90171352, 90248768, 90326256, 90403800, 90481416, 90559096, 90636848, 90714664, 90792544, 90870496, 90948512, 91026592, 91104744, 91182960, 91261248, 91339600, 91418016, 91496504]

/-- rows 2600 to 2699 of `kcorrect-default-v4.fits` -/
def defaultUnits26 : List Nat :=
  [91575056, 91653680, 91732368, 91811120, 91889944, 91968832, 92047792, 92126824, 92205920, 92285080, 92364312, 92443608, 92522976, 92602408, 92681912, 92761488, 92841120, 92920832, 93000608, 93080456, 93160368, 93240352, 93320400, 93400520, 93480704, 93560960, 93641288, 93721688, 93802152, 93882680, 93963280, 94043952, 94124696, 94205504, 94286384, 94367336, 94448352, 94529440, 94610600, 94691824, 94773120, 94854488, 94935928, 95017432, 95099008, 95180656, 95262368, 95344160, 95426016, 95507944, 95589936, 95672008, 95754144, 95836352, 95918632, 96000984, 96083408, 96165896, 96248456, 96331088, 96413792, 96496568, 96579416, 96662336, 96745320, 96828384, 96911512, 96994720, 97077992, 97161336, 97244752, 97328240, 97411800, 97495432, 97579136, 97662912, 97746760, 97830680, 97914672, 97998736, 98082872, 98167080, 98251360, 98335712, 98420144, 98504640, 98589208, 98673848, 98758568, 98843352, 98928216, 99013152, 99098160, 99183240, 99268392, 99353616, 99438912, 99524288, 99609736, 99695256]

/-- rows 2700 to 2799 of `kcorrect-default-v4.fits` -/
def defaultUnits27 : List Nat :=
  [99780848, 99866512, 99952248, 100038064, 100123952, 100209912, 100295944, 100382056, 100468232, 100554488, 100640824, 100727224, 100813704, 100900256, 100986888, 101073584, 101160360, 101247216, 101334136, 101421136, 101508208, 101595360, 101682584, 101769880, 101857256, 101944704, 102032232, 102119824, 102207504, 102295248, 102383072, 102470976, 102558952, 102647000, 102735128, 102823328, 102911608, 102999960, 103088392, 103176896, 103265480, 103354136, 103442872, 103531680, 103620568, 103709528, 103798568, 103887688, 103976880, 104066144, 104155488, 104244912, 104334408, 104423984, 104513640, 104603368, 104693176, 104783056, 104873016, 104963056, 105053168, 105143360, 105233632, 105323984, 105414408, 105504912, 105595488, 105686144, 105776880, 105867696, 105958592, 106049560, 106140608, 106231736, 106322936, 106414216, 106505584, 106597024, 106688536, 106780136, 106871808, 106963560, 107055400, 107147312, 107239296, 107331368, 107423520, 107515744, 107608048, 107700440, 107792904, 107885448, 107978072, 108070776, 108163560, 108256424, 108349360, 108442384, 108535488, 108628672]

/-- rows 2800 to 2899 of `kcorrect-default-v4.fits` -/
def defaultUnits28 : List Nat :=
  [108721936, 108815272, 108908696, 109002200, 109095784, 109189448, 109283192, 109377016, 109470920, 109564904, 109658968, 109753120, 109847344, 109941656, 110036040, 110130512, 110225064, 110319696, 110414408, 110509208, 110604080, 110699040, 110794080, 110889200, 110984408, 111079688, 111175056, 111270504, 111366032, 111461648, 111557344, 111653120, 111748976, 111844920, 111940944, 112037048, 112133240, 112229504, 112325864, 112422296, 112518816, 112615416, 112712104, 112808872, 112905720, 113002656, 113099672, 113196776, 113293960, 113391224, 113488576, 113586016, 113683528, 113781136, 113878816, 113976592, 114074440, 114172376, 114270400, 114368504, 114466696, 114564968, 114663328, 114761776, 114860304, 114958912, 115057608, 115156392, 115255256, 115354208, 115453248, 115552368, 115651576, 115750864, 115850240, 115949704, 116049256, 116148888, 116248608, 116348408, 116448296, 116548272, 116648336, 116748488, 116848720, 116949040, 117049440, 117149936, 117250512, 117351176, 117451928, 117552768, 117653688, 117754696, 117855800, 117956984, 118058248, 118159608, 118261056, 118362584]

/-- rows 2900 to 2999 of `kcorrect-default-v4.fits` -/
def defaultUnits29 : List Nat :=
  [118464208, 118565912, 118667704, 118769584, 118871552, 118973616, 119075752, 119177984, 119280304, 119382712, 119485208, 119587792, 119690464, 119793224, 119896072, 119999008, 120102032, 120205144, 120308344, 120411632, 120515008, 120618480, 120722032, 120825680, 120929416, 121033232, 121137144, 121241152, 121345240, 121449416, 121553688, 121658048, 121762496, 121867032, 121971664, 122076384, 122181184, 122286088, 122391072, 122496152, 122601320, 122706576, 122811928, 122917368, 123022896, 123128512, 123234224, 123340024, 123445920, 123551904, 123657976, 123764144, 123870400, 123976744, 124083184, 124189720, 124296336, 124403056, 124509856, 124616752, 124723744, 124830824, 124938000, 125045264, 125152616, 125260064, 125367608, 125475240, 125582968, 125690784, 125798696, 125906696, 126014792, 126122984, 126231264, 126339640, 126448112, 126556672, 126665320, 126774072, 126882912, 126991848, 127100872, 127209992, 127319208, 127428520, 127537920, 127647416, 127757008, 127866696, 127976472, 128086344, 128196312, 128306376, 128416528, 128526784, 128637128, 128747568, 128858104, 128968736]

/-- rows 3000 to 3099 of `kcorrect-default-v4.fits` -/
def defaultUnits30 : List Nat :=
  [129079456, 129190280, 129301192, 129412200, 129523312, 129634512, 129745808, 129857200, 129968688, 130080272, 130191952, 130303728, 130415600, 130527560, 130639624, 130751784, 130864040, 130976392, 131088840, 131201392, 131314032, 131426768, 131539600, 131652536, 131765568, 131878688, 131991912, 132105232, 132218656, 132332168, 132445784, 132559488, 132673296, 132787208, 132901208, 133015312, 133129512, 133243808, 133358200, 133472696, 133587288, 133701976, 133816768, 133931656, 134046640, 134161720, 134276912, 134392192, 134507568, 134623056, 134738624, 134854304, 134970080, 135085968, 135201936, 135318016, 135434192, 135550464, 135666848, 135783328, 135899904, 136016576, 136133344, 136250224, 136367200, 136484272, 136601456, 136718736, 136836112, 136953584, 137071168, 137188848, 137306640, 137424512, 137542496, 137660592, 137778784, 137897072, 138015456, 138133952, 138252544, 138371232, 138490032, 138608928, 138727936, 138847040, 138966240, 139085552, 139204960, 139324480, 139444096, 139563808, 139683632, 139803552, 139923584, 140043712, 140163952, 140284288, 140404720, 140525264]

/-- rows 3100 to 3199 of `kcorrect-default-v4.fits` -/
def defaultUnits31 : List Nat :=
  [140645920, 140766672, 140887520, 141008480, 141129536, 141250704, 141371968, 141493344, 141614832, 141736400, 141858096, 141979888, 142101776, 142223776, 142345888, 142468096, 142590416, 142712832, 142835360, 142957984, 143080720, 143203568, 143326512, 143449552, 143572720, 143695984, 143819344, 143942816, 144066400, 144190096, 144313888, 144437776, 144561792, 144685904, 144810128, 144934448, 145058880, 145183424, 145308064, 145432816, 145557680, 145682640, 145807712, 145932896, 146058192, 146183584, 146309088, 146434704, 146560416, 146686256, 146812192, 146938240, 147064384, 147190640, 147317008, 147443488, 147570080, 147696768, 147823584, 147950496, 148077520, 148204640, 148331888, 148459232, 148586688, 148714256, 148841936, 148969728, 149097616, 149225632, 149353744, 149481968, 149610304, 149738752, 149867312, 149995968, 150124752, 150253648, 150382640, 150511744, 150640976, 150770304, 150899744, 151029296, 151158960, 151288736, 151418624, 151548624, 151678736, 151808960, 151939296, 152069744, 152200304, 152330976, 152461744, 152592640, 152723648, 152854768, 152986000, 153117344]

/-- rows 3200 to 3299 of `kcorrect-default-v4.fits` -/
def defaultUnits32 : List Nat :=
  [153248800, 153380384, 153512064, 153643856, 153775760, 153907792, 154039920, 154172176, 154304544, 154437024, 154569600, 154702304, 154835136, 154968064, 155101104, 155234272, 155367552, 155500928, 155634432, 155768064, 155901792, 156035632, 156169600, 156303680, 156437872, 156572176, 156706608, 156841136, 156975792, 157110576, 157245456, 157380464, 157515568, 157650800, 157786160, 157921616, 158057200, 158192912, 158328720, 158464656, 158600704, 158736864, 158873152, 159009552, 159146064, 159282704, 159419440, 159556320, 159693296, 159830400, 159967632, 160104960, 160242416, 160380000, 160517696, 160655504, 160793424, 160931472, 161069648, 161207936, 161346336, 161484848, 161623488, 161762256, 161901136, 162040128, 162179248, 162318496, 162457840, 162597328, 162736928, 162876640, 163016480, 163156432, 163296512, 163436704, 163577024, 163717456, 163858016, 163998688, 164139488, 164280416, 164421456, 164562624, 164703904, 164845312, 164986832, 165128480, 165270256, 165412144, 165554160, 165696288, 165838544, 165980928, 166123424, 166266048, 166408800, 166551664, 166694656, 166837776]

/-- rows 3300 to 3399 of `kcorrect-default-v4.fits` -/
def defaultUnits33 : List Nat :=
  [166981008, 167124368, 167267856, 167411456, 167555184, 167699040, 167843024, 167987120, 168131344, 168275696, 168420160, 168564768, 168709488, 168854320, 168999296, 169144384, 169289600, 169434944, 169580416, 169726000, 169871728, 170017568, 170163536, 170309616, 170455840, 170602192, 170748656, 170895248, 171041968, 171188816, 171335792, 171482880, 171630112, 171777456, 171924944, 172072544, 172220272, 172368128, 172516128, 172664240, 172812480, 172960832, 173109328, 173257952, 173406704, 173555584, 173704592, 173853712, 174002976, 174152368, 174301888, 174451536, 174601296, 174751200, 174901232, 175051392, 175201680, 175352112, 175502656, 175653328, 175804128, 175955072, 176106128, 176257328, 176408656, 176560112, 176711696, 176863408, 177015248, 177167232, 177319328, 177471568, 177623936, 177776432, 177929056, 178081824, 178234704, 178387728, 178540880, 178694176, 178847584, 179001136, 179154816, 179308624, 179462576, 179616640, 179770848, 179925200, 180079664, 180234272, 180389008, 180543888, 180698880, 180854032, 181009296, 181164704, 181320240, 181475904, 181631712, 181787648]

/-- rows 3400 to 3499 of `kcorrect-default-v4.fits` -/
def defaultUnits34 : List Nat :=
  [181943728, 182099936, 182256272, 182412736, 182569360, 182726096, 182882976, 183039984, 183197136, 183354416, 183511840, 183669392, 183827072, 183984896, 184142848, 184300944, 184459184, 184617552, 184776048, 184934688, 185093456, 185252368, 185411424, 185570608, 185729920, 185889376, 186048976, 186208704, 186368576, 186528576, 186688720, 186848992, 187009408, 187169968, 187330656, 187491488, 187652464, 187813568, 187974816, 188136208, 188297728, 188459392, 188621184, 188783120, 188945200, 189107424, 189269776, 189432272, 189594912, 189757680, 189920592, 190083648, 190246848, 190410176, 190573664, 190737280, 190901024, 191064928, 191228960, 191393136, 191557456, 191721920, 191886528, 192051264, 192216144, 192381168, 192546336, 192711648, 192877104, 193042688, 193208432, 193374304, 193540320, 193706480, 193872800, 194039248, 194205824, 194372560, 194539440, 194706464, 194873632, 195040928, 195208384, 195375984, 195543712, 195711600, 195879632, 196047792, 196216112, 196384576, 196553168, 196721920, 196890816, 197059856, 197229040, 197398368, 197567840, 197737472, 197907232, 198077136]

/-- rows 3500 to 3599 of `kcorrect-default-v4.fits` -/
def defaultUnits35 : List Nat :=
  [198247200, 198417408, 198587760, 198758256, 198928896, 199099680, 199270608, 199441696, 199612928, 199784304, 199955824, 200127488, 200299312, 200471280, 200643392, 200815648, 200988064, 201160624, 201333328, 201506176, 201679184, 201852320, 202025632, 202199072, 202372672, 202546416, 202720304, 202894352, 203068544, 203242896, 203417376, 203592016, 203766816, 203941760, 204116848, 204292096, 204467488, 204643024, 204818720, 204994576, 205170560, 205346720, 205523008, 205699456, 205876064, 206052816, 206229728, 206406784, 206583984, 206761344, 206938864, 207116528, 207294352, 207472320, 207650432, 207828720, 208007152, 208185728, 208364464, 208543360, 208722400, 208901600, 209080944, 209260448, 209440112, 209619920, 209799888, 209980016, 210160288, 210340720, 210521312, 210702048, 210882944, 211064000, 211245200, 211426560, 211608080, 211789760, 211971584, 212153568, 212335712, 212518016, 212700464, 212883088, 213065856, 213248784, 213431856, 213615104, 213798496, 213982048, 214165760, 214349632, 214533664, 214717856, 214902192, 215086688, 215271360, 215456176, 215641152, 215826288]

/-- rows 3600 to 3699 of `kcorrect-default-v4.fits` -/
def defaultUnits36 : List Nat :=
  [216011584, 216197040, 216382656, 216568432, 216754368, 216940448, 217126704, 217313120, 217499696, 217686432, 217873312, 218060368, 218247584, 218434960, 218622496, 218810192, 218998048, 219186064, 219374240, 219562592, 219751088, 219939760, 220128592, 220317568, 220506720, 220696048, 220885520, 221075152, 221264960, 221454928, 221645056, 221835344, 222025792, 222216416, 222407200, 222598144, 222789248, 222980528, 223171968, 223363568, 223555344, 223747264, 223939360, 224131632, 224324048, 224516640, 224709408, 224902320, 225095408, 225288672, 225482080, 225675664, 225869424, 226063344, 226257424, 226451680, 226646096, 226840672, 227035424, 227230352, 227425440, 227620688, 227816112, 228011696, 228207456, 228403392, 228599472, 228795744, 228992176, 229188768, 229385536, 229582480, 229779584, 229976864, 230174304, 230371920, 230569696, 230767648, 230965776, 231164064, 231362528, 231561168, 231759968, 231958944, 232158096, 232357408, 232556896, 232756560, 232956400, 233156400, 233356576, 233556912, 233757440, 233958128, 234158992, 234360016, 234561232, 234762608, 234964160, 235165888]

/-- rows 3700 to 3799 of `kcorrect-default-v4.fits` -/
def defaultUnits37 : List Nat :=
  [235367792, 235569872, 235772112, 235974528, 236177120, 236379888, 236582832, 236785952, 236989248, 237192704, 237396352, 237600160, 237804144, 238008320, 238212656, 238417168, 238621856, 238826736, 239031776, 239236992, 239442384, 239647952, 239853712, 240059632, 240265728, 240472000, 240678464, 240885088, 241091904, 241298896, 241506064, 241713408, 241920928, 242128624, 242336496, 242544560, 242752784, 242961200, 243169792, 243378560, 243587520, 243796640, 244005952, 244215440, 244425120, 244634960, 244844992, 245055200, 245265600, 245476160, 245686912, 245897840, 246108960, 246320256, 246531728, 246743392, 246955232, 247167248, 247379456, 247591840, 247804400, 248017152, 248230096, 248443200, 248656512, 248869984, 249083648, 249297504, 249511536, 249725744, 249940144, 250154736, 250369504, 250584448, 250799584, 251014912, 251230416, 251446112, 251661984, 251878048, 252094304, 252310736, 252527344, 252744160, 252961152, 253178320, 253395696, 253613232, 253830976, 254048896, 254267008, 254485312, 254703792, 254922464, 255141328, 255360384, 255579616, 255799040, 256018656, 256238464]

/-- rows 3800 to 3899 of `kcorrect-default-v4.fits` -/
def defaultUnits38 : List Nat :=
  [256458448, 256678640, 256899008, 257119568, 257340304, 257561248, 257782368, 258003696, 258225200, 258446896, 258668784, 258890864, 259113120, 259335584, 259558240, 259781072, 260004112, 260227344, 260450752, 260674352, 260898160, 261122144, 261346336, 261570720, 261795280, 262020048, 262244992, 262470144, 262695488, 262921024, 263146752, 263372672, 263598784, 263825104, 264051600, 264278304, 264505200, 264732288, 264959568, 265187056, 265414720, 265642592, 265870656, 266098928, 266327376, 266556032, 266784880, 267013920, 267243168, 267472608, 267702240, 267932080, 268162112, 268392336, 268622752, 268853376, 269084192, 269315232, 269546432, 269777856, 270009472, 270241280, 270473312, 270705504, 270937920, 271170528, 271403360, 271636352, 271869568, 272102976, 272336608, 272570400, 272804416, 273038624, 273273056, 273507680, 273742496, 273977504, 274212736, 274448160, 274683776, 274919616, 275155648, 275391872, 275628288, 275864928, 276101792, 276338816, 276576064, 276813536, 277051168, 277289056, 277527104, 277765376, 278003840, 278242528, 278481408, 278720480, 278959776, 279199296]

/-- rows 3900 to 3999 of `kcorrect-default-v4.fits` -/
def defaultUnits39 : List Nat :=
  [279438976, 279678912, 279919008, 280159328, 280399872, 280640608, 280881536, 281122688, 281364032, 281605600, 281847392, 282089344, 282331552, 282573952, 282816544, 283059360, 283302368, 283545600, 283789024, 284032672, 284276512, 284520576, 284764864, 285009344, 285254048, 285498944, 285744064, 285989376, 286234912, 286480640, 286726624, 286972768, 287219168, 287465760, 287712544, 287959552, 288206784, 288454208, 288701856, 288949728, 289197824, 289446112, 289694592, 289943328, 290192256, 290441376, 290690752, 290940320, 291190080, 291440096, 291690304, 291940736, 292191392, 292442240, 292693312, 292944608, 293196096, 293447840, 293699776, 293951904, 294204288, 294456864, 294709664, 294962688, 295215936, 295469376, 295723072, 295976960, 296231072, 296485376, 296739936, 296994688, 297249664, 297504864, 297760288, 298015936, 298271808, 298527872, 298784192, 299040704, 299297440, 299554400, 299811584, 300068960, 300326592, 300584448, 300842496, 301100800, 301359296, 301618016, 301876992, 302136160, 302395552, 302655168, 302915008, 303175072, 303435360, 303695872, 303956608, 304217568]

/-- rows 4000 to 4099 of `kcorrect-default-v4.fits` -/
def defaultUnits40 : List Nat :=
  [304478752, 304740160, 305001792, 305263648, 305525728, 305788032, 306050560, 306313312, 306576320, 306839520, 307102944, 307366624, 307630496, 307894624, 308158944, 308423520, 308688320, 308953344, 309218592, 309484064, 309749760, 310015712, 310281856, 310548256, 310814880, 311081728, 311348800, 311616096, 311883648, 312151392, 312419392, 312687616, 312956064, 313224768, 313493664, 313762816, 314032192, 314301824, 314571648, 314841728, 315112032, 315382560, 315653344, 315924352, 316195584, 316467040, 316738752, 317010688, 317282848, 317555232, 317827872, 318100736, 318373856, 318647168, 318920768, 319194560, 319468608, 319742880, 320017408, 320292128, 320567136, 320842336, 321117792, 321393504, 321669408, 321945600, 322221984, 322498624, 322775520, 323052640, 323329984, 323607584, 323885408, 324163488, 324441792, 324720320, 324999104, 325278144, 325557408, 325836896, 326116640, 326396640, 326676864, 326957344, 327238048, 327518976, 327800160, 328081600, 328363264, 328645184, 328927328, 329209728, 329492384, 329775264, 330058400, 330341760, 330625376, 330909216, 331193312, 331477664]

/-- rows 4100 to 4199 of `kcorrect-default-v4.fits` -/
def defaultUnits41 : List Nat :=
  [331762272, 332047072, 332332160, 332617472, 332903040, 333188864, 333474912, 333761216, 334047776, 334334560, 334621600, 334908896, 335196416, 335484192, 335772224, 336060512, 336349024, 336637792, 336926816, 337216064, 337505600, 337795360, 338085376, 338375616, 338666144, 338956896, 339247904, 339539168, 339830656, 340122432, 340414432, 340706688, 340999200, 341291968, 341584992, 341878240, 342171776, 342465536, 342759552, 343053824, 343348352, 343643136, 343938176, 344233440, 344528992, 344824768, 345120832, 345417120, 345713696, 346010496, 346307552, 346604864, 346902464, 347200288, 347498368, 347796704, 348095296, 348394176, 348693280, 348992640, 349292256, 349592160, 349892288, 350192672, 350493344, 350794240, 351095424, 351396864, 351698528, 352000480, 352302688, 352605152, 352907872, 353210880, 353514112, 353817632, 354121408, 354425408, 354729696, 355034272, 355339072, 355644160, 355949472, 356255072, 356560928, 356867072, 357173440, 357480096, 357787008, 358094176, 358401632, 358709312, 359017280, 359325504, 359634016, 359942784, 360251808, 360561088, 360870656, 361180480]

/-- rows 4200 to 4299 of `kcorrect-default-v4.fits` -/
def defaultUnits42 : List Nat :=
  [361490560, 361800928, 362111552, 362422432, 362733568, 363044992, 363356704, 363668640, 363980864, 364293376, 364606112, 364919168, 365232448, 365546016, 365859872, 366173952, 366488352, 366802976, 367117888, 367433088, 367748544, 368064256, 368380256, 368696544, 369013088, 369329888, 369646976, 369964320, 370281952, 370599872, 370918048, 371236480, 371555200, 371874208, 372193472, 372513024, 372832832, 373152928, 373473312, 373793952, 374114848, 374436064, 374757504, 375079264, 375401280, 375723584, 376046144, 376369024, 376692128, 377015552, 377339232, 377663200, 377987424, 378311936, 378636736, 378961824, 379287168, 379612800, 379938720, 380264896, 380591392, 380918144, 381245184, 381572480, 381900096, 382227968, 382556128, 382884544, 383213280, 383542272, 383871584, 384201152, 384531008, 384861120, 385191552, 385522240, 385853248, 386184512, 386516064, 386847904, 387180032, 387512448, 387845152, 388178112, 388511392, 388844928, 389178784, 389512896, 389847328, 390182016, 390516992, 390852288, 391187840, 391523680, 391859840, 392196256, 392532992, 392869984, 393207264, 393544864]

/-- rows 4300 to 4399 of `kcorrect-default-v4.fits` -/
def defaultUnits43 : List Nat :=
  [393882752, 394220896, 394559360, 394898112, 395237152, 395576480, 395916096, 396256000, 396596192, 396936704, 397277472, 397618560, 397959936, 398301600, 398643552, 398985792, 399328352, 399671200, 400014336, 400357760, 400701472, 401045504, 401389824, 401734432, 402079328, 402424544, 402770016, 403115808, 403461920, 403808288, 404154976, 404501984, 404849248, 405196832, 405544704, 405892896, 406241376, 406590144, 406939200, 407288576, 407638272, 407988224, 408338496, 408689088, 409039968, 409391136, 409742624, 410094400, 410446496, 410798880, 411151552, 411504544, 411857856, 412211424, 412565344, 412919552, 413274048, 413628864, 413983968, 414339392, 414695136, 415051168, 415407520, 415764160, 416121088, 416478368, 416835936, 417193792, 417551968, 417910464, 418269248, 418628352, 418987776, 419347488, 419707520, 420067840, 420428480, 420789440, 421150720, 421512288, 421874176, 422236352, 422598880, 422961696, 423324832, 423688256, 424052032, 424416096, 424780448, 425145152, 425510144, 425875488, 426241120, 426607040, 426973312, 427339904, 427706784, 428073984, 428441504, 428809344]

/-- rows 4400 to 4499 of `kcorrect-default-v4.fits` -/
def defaultUnits44 : List Nat :=
  [429177472, 429545952, 429914752, 430283840, 430653248, 431022976, 431393024, 431763392, 432134080, 432505088, 432876416, 433248064, 433620032, 433992320, 434364896, 434737824, 435111072, 435484640, 435858496, 436232704, 436607232, 436982080, 437357248, 437732736, 438108544, 438484672, 438861152, 439237920, 439615040, 439992448, 440370208, 440748288, 441126688, 441505408, 441884448, 442263840, 442643552, 443023552, 443403904, 443784608, 444165600, 444546944, 444928608, 445310592, 445692896, 446075552, 446458528, 446841824, 447225472, 447609440, 447993728, 448378336, 448763296, 449148576, 449534176, 449920128, 450306400, 450693024, 451079936, 451467232, 451854816, 452242752, 452631040, 453019648, 453408576, 453797824, 454187456, 454577376, 454967648, 455358272, 455749216, 456140480, 456532096, 456924064, 457316352, 457708960, 458101920, 458495232, 458888864, 459282848, 459677152, 460071808, 460466784, 460862112, 461257792, 461653792, 462050144, 462446848, 462843872, 463241248, 463638944, 464037024, 464435392, 464834144, 465233216, 465632640, 466032416, 466432512, 466832960, 467233760]

/-- rows 4500 to 4599 of `kcorrect-default-v4.fits` -/
def defaultUnits45 : List Nat :=
  [467634912, 468036384, 468438208, 468840384, 469242912, 469645760, 470048992, 470452544, 470856448, 471260704, 471665280, 472070240, 472475520, 472881152, 473287168, 473693504, 474100160, 474507200, 474914592, 475322336, 475730400, 476138848, 476547616, 476956768, 477366240, 477776096, 478186272, 478596832, 479007712, 479418976, 479830560, 480242528, 480654848, 481067488, 481480512, 481893888, 482307616, 482721696, 483136128, 483550912, 483966080, 484381568, 484797440, 485213664, 485630240, 486047168, 486464448, 486882112, 487300128, 487718464, 488137216, 488556288, 488975744, 489395552, 489815712, 490236224, 490657120, 491078368, 491500000, 491921952, 492344288, 492767008, 493190048, 493613472, 494037280, 494461408, 494885920, 495310816, 495736064, 496161664, 496587648, 497013984, 497440704, 497867776, 498295200, 498723008, 499151200, 499579744, 500008640, 500437920, 500867552, 501297568, 501727968, 502158720, 502589856, 503021344, 503453216, 503885440, 504318048, 504751008, 505184384, 505618080, 506052192, 506486656, 506921504, 507356704, 507792288, 508228256, 508664576, 509101312]

/-- rows 4600 to 4699 of `kcorrect-default-v4.fits` -/
def defaultUnits46 : List Nat :=
  [509538368, 509975840, 510413664, 510851904, 511290464, 511729440, 512168768, 512608512, 513048608, 513489056, 513929920, 514371136, 514812768, 515254752, 515697120, 516139872, 516582976, 517026496, 517470400, 517914656, 518359296, 518804352, 519249760, 519695552, 520141728, 520588288, 521035232, 521482560, 521930304, 522378400, 522826880, 523275744, 523724992, 524174624, 524624672, 525075072, 525525856, 525977056, 526428640, 526880576, 527332928, 527785664, 528238816, 528692320, 529146208, 529600512, 530055200, 530510272, 530965728, 531421600, 531877856, 532334464, 532791520, 533248928, 533706752, 534164960, 534623552, 535082560, 535541952, 536001728, 536461920, 536922496, 537383488, 537844800, 538306560, 538768768, 539231296, 539694272, 540157632, 540621376, 541085504, 541550016, 542014976, 542480320, 542946048, 543412224, 543878784, 544345664, 544813056, 545280768, 545748928, 546217472, 546686400, 547155776, 547625536, 548095680, 548566272, 549037248, 549508608, 549980352, 550452544, 550925120, 551398144, 551871552, 552345344, 552819520, 553294144, 553769216, 554244608, 554720448]

/-- rows 4700 to 4799 of `kcorrect-default-v4.fits` -/
def defaultUnits47 : List Nat :=
  [555196736, 555673408, 556150464, 556627904, 557105792, 557584128, 558062848, 558541952, 559021440, 559501440, 559981760, 560462528, 560943744, 561425280, 561907328, 562389760, 562872576, 563355840, 563839488, 564323584, 564808064, 565292992, 565778304, 566264064, 566750208, 567236800, 567723776, 568211200, 568699008, 569187264, 569675968, 570165056, 570654528, 571144512, 571634816, 572125632, 572616768, 573108416, 573600448, 574092928, 574585792, 575079104, 575572800, 576067008, 576561536, 577056576, 577552000, 578047872, 578544128, 579040832, 579537984, 580035520, 580533504, 581031936, 581530752, 582030016, 582529728, 583029824, 583530368, 584031360, 584532800, 585034624, 585536896, 586039616, 586542784, 587046336, 587550336, 588054784, 588559616, 589064960, 589570688, 590076864, 590583488, 591090496, 591597952, 592105856, 592614208, 593123008, 593632256, 594141888, 594651968, 595162496, 595673472, 596184896, 596696768, 597209024, 597721792, 598234944, 598748544, 599262592, 599777088, 600292032, 600807424, 601323200, 601839488, 602356160, 602873344, 603390912, 603908992, 604427456]

/-- rows 4800 to 4899 of `kcorrect-default-v4.fits` -/
def defaultUnits48 : List Nat :=
  [604946368, 605465728, 605985536, 606505792, 607026560, 607547712, 608069312, 608591360, 609113856, 609636800, 610160192, 610684032, 611208320, 611733120, 612258304, 612783936, 613310016, 613836608, 614363584, 614891072, 615418944, 615947328, 616476160, 617005440, 617535104, 618065344, 618595968, 619127040, 619658560, 620190592, 620723072, 621255936, 621789312, 622323200, 622857472, 623392192, 623927424, 624463104, 624999232, 625535808, 626072832, 626610368, 627148352, 627686784, 628225664, 628764992, 629304832, 629845120, 630385856, 630927104, 631468736, 632010880, 632553536, 633096576, 633640128, 634184128, 634728576, 635273536, 635818944, 636364800, 636911168, 637457984, 638005248, 638553024, 639101248, 639649920, 640199104, 640748736, 641298880, 641849408, 642400512, 642952000, 643504000, 644056512, 644609472, 645162880, 645716800, 646271168, 646825984, 647381312, 647937152, 648493376, 649050176, 649607424, 650165120, 650723328, 651281984, 651841152, 652400768, 652960896, 653521472, 654082560, 654644096, 655206144, 655768640, 656331648, 656895168, 657459136, 658023616, 658588544]

/-- rows 4900 to 4999 of `kcorrect-default-v4.fits` -/
def defaultUnits49 : List Nat :=
  [659153984, 659719872, 660286272, 660853120, 661420544, 661988352, 662556736, 663125568, 663694848, 664264704, 664835008, 665405760, 665977024, 666548800, 667121088, 667693824, 668267072, 668840832, 669415040, 669989760, 670564992, 671140672, 671716864, 672293568, 672870784, 673448448, 674026624, 674605312, 675184512, 675764160, 676344320, 676924992, 677506176, 678087808, 678670016, 679252672, 679835840, 680419520, 681003648, 681588352, 682173504, 682759168, 683345344, 683932032, 684519232, 685106944, 685695104, 686283840, 686873024, 687462720, 688052928, 688643648, 689234880, 689826624, 690418880, 691011648, 691604864, 692198656, 692792960, 693387712, 693983040, 694578816, 695175168, 695772032, 696369344, 696967232, 697565568, 698164480, 698763904, 699363776, 699964224, 700565184, 701166656, 701768640, 702371136, 702974144, 703577664, 704181696, 704786304, 705391360, 705996992, 706603136, 707209792, 707816960, 708424640, 709032832, 709641600, 710250816, 710860608, 711470912, 712081728, 712693120, 713304960, 713917376, 714530304, 715143744, 715757760, 716372224, 716987264, 717602816]

/-- rows 5000 to 5099 of `kcorrect-default-v4.fits` -/
def defaultUnits50 : List Nat :=
  [718218944, 718835520, 719452672, 720070400, 720688576, 721307328, 721926592, 722546432, 723166720, 723787584, 724409024, 725030976, 725653440, 726276416, 726899968, 727524032, 728148672, 728773760, 729399488, 730025664, 730652480, 731279744, 731907584, 732535936, 733164864, 733794304, 734424320, 735054848, 735685888, 736317504, 736949696, 737582400, 738215616, 738849408, 739483776, 740118656, 740754048, 741390016, 742026560, 742663616, 743301184, 743939392, 744578048, 745217344, 745857152, 746497472, 747138368, 747779840, 748421824, 749064384, 749707456, 750351104, 750995328, 751640064, 752285440, 752931264, 753577728, 754224704, 754872192, 755520320, 756168960, 756818176, 757467904, 758118208, 758769088, 759420544, 760072512, 760725056, 761378176, 762031872, 762686080, 763340928, 763996288, 764652160, 765308672, 765965696, 766623360, 767281536, 767940288, 768599552, 769259456, 769919872, 770580864, 771242496, 771904640, 772567296, 773230592, 773894464, 774558848, 775223872, 775889408, 776555584, 777222272, 777889536, 778557376, 779225792, 779894784, 780564416, 781234560, 781905280]

/-- rows 5100 to 5199 of `kcorrect-default-v4.fits` -/
def defaultUnits51 : List Nat :=
  [782576576, 783248448, 783920896, 784593920, 785267520, 785941696, 786616448, 787291776, 787967744, 788644224, 789321344, 789998976, 790677248, 791356032, 792035456, 792715456, 793396032, 794077184, 794758976, 795441280, 796124224, 796807744, 797491776, 798176512, 798861760, 799547584, 800234048, 800921088, 801608704, 802296896, 802985728, 803675136, 804365120, 805055680, 805746880, 806438656, 807131008, 807823936, 808517504, 809211648, 809906368, 810601728, 811297664, 811994176, 812691328, 813389056, 814087360, 814786304, 815485824, 816185984, 816886720, 817588032, 818289984, 818992512, 819695616, 820399360, 821103744, 821808704, 822514240, 823220416, 823927168, 824634560, 825342528, 826051136, 826760320, 827470144, 828180544, 828891584, 829603200, 830315456, 831028288, 831741760, 832455872, 833170560, 833885888, 834601792, 835318336, 836035520, 836753280, 837471680, 838190656, 838910272, 839630528, 840351360, 841072832, 841794944, 842517696, 843241024, 843964992, 844689536, 845414720, 846140544, 846867008, 847594112, 848321792, 849050112, 849779072, 850508608, 851238784, 851969664]

/-- rows 5200 to 5299 of `kcorrect-default-v4.fits` -/
def defaultUnits52 : List Nat :=
  [852701120, 853433152, 854165888, 854899200, 855633152, 856367808, 857102976, 857838848, 858575360, 859312448, 860050240, 860788608, 861527616, 862267328, 863007616, 863748544, 864490112, 865232256, 865975104, 866718592, 867462720, 868207488, 868952832, 869698880, 870445568, 871192896, 871940800, 872689408, 873438656, 874188544, 874939072, 875690240, 876442048, 877194496, 877947648, 878701376, 879455808, 880210816, 880966528, 881722880, 882479872, 883237504, 883995840, 884754752, 885514368, 886274624, 887035520, 887797056, 888559296, 889322176, 890085696, 890849856, 891614656, 892380160, 893146304, 893913088, 894680576, 895448704, 896217472, 896986944, 897756992, 898527808, 899299200, 900071296, 900844032, 901617472, 902391552, 903166272, 903941696, 904717760, 905494464, 906271872, 907049984, 907828672, 908608128, 909388160, 910168960, 910950336, 911732416, 912515200, 913298624, 914082752, 914867520, 915652992, 916439104, 917225920, 918013376, 918801536, 919590336, 920379840, 921170048, 921960896, 922752448, 923544640, 924337600, 925131136, 925925440, 926720384, 927515968, 928312320]

/-- rows 5300 to 5399 of `kcorrect-default-v4.fits` -/
def defaultUnits53 : List Nat :=
  [929109312, 929906944, 930705344, 931504384, 932304128, 933104512, 933905664, 934707456, 935509952, 936313088, 937116992, 937921536, 938726784, 939532672, 940339328, 941146624, 941954688, 942763392, 943572800, 944382848, 945193664, 946005120, 946817344, 947630208, 948443776, 949258048, 950073024, 950888704, 951705088, 952522176, 953339968, 954158464, 954977600, 955797504, 956618112, 957439424, 958261440, 959084096, 959907520, 960731648, 961556480, 962382016, 963208256, 964035200, 964862848, 965691264, 966520320, 967350144, 968180672, 969011840, 969843776, 970676480, 971509824, 972343936, 973178688, 974014208, 974850432, 975687424, 976525056, 977363456, 978202560, 979042368, 979882944, 980724224, 981566208, 982408896, 983252352, 984096512, 984941376, 985787008, 986633344, 987480448, 988328192, 989176704, 990025984, 990875968, 991726656, 992578112, 993430272, 994283200, 995136832, 995991168, 996846272, 997702144, 998558656, 999416000, 1000274048, 1001132800, 1001992320, 1002852544, 1003713536, 1004575296, 1005437760, 1006300992, 1007164928, 1008029632, 1008895040, 1009761216, 1010628160, 1011495808]

/-- rows 5400 to 5499 of `kcorrect-default-v4.fits` -/
def defaultUnits54 : List Nat :=
  [1012364224, 1013233408, 1014103296, 1014973952, 1015845312, 1016717504, 1017590400, 1018464000, 1019338432, 1020213568, 1021089472, 1021966080, 1022843520, 1023721664, 1024600576, 1025480192, 1026360640, 1027241792, 1028123712, 1029006400, 1029889856, 1030774080, 1031659008, 1032544768, 1033431232, 1034318464, 1035206464, 1036095232, 1036984768, 1037875072, 1038766144, 1039657984, 1040550528, 1041443904, 1042338048, 1043232896, 1044128576, 1045025024, 1045922176, 1046820160, 1047718912, 1048618432, 1049518720, 1050419776, 1051321600, 1052224192, 1053127552, 1054031744, 1054936640, 1055842368, 1056748864, 1057656128, 1058564160, 1059472960, 1060382592, 1061292928, 1062204096, 1063116096, 1064028800, 1064942336, 1065856576, 1066771712, 1067687552, 1068604224, 1069521664, 1070439872, 1071358912, 1072278720, 1073199296, 1074120704, 1075042816, 1075965824, 1076889600, 1077814144, 1078739456, 1079665664, 1080592512, 1081520256, 1082448896, 1083378176, 1084308352, 1085239168, 1086170880, 1087103488, 1088036736, 1088970880, 1089905792, 1090841600, 1091778048, 1092715392, 1093653632, 1094592512, 1095532288, 1096472832, 1097414144, 1098356352, 1099299328, 1100243200, 1101187712, 1102133120]

/-- rows 5500 to 5599 of `kcorrect-default-v4.fits` -/
def defaultUnits55 : List Nat :=
  [1103079424, 1104026496, 1104974336, 1105922944, 1106872448, 1107822720, 1108773888, 1109725824, 1110678528, 1111632128, 1112586496, 1113541632, 1114497664, 1115454592, 1116412160, 1117370624, 1118329984, 1119290112, 1120251136, 1121212928, 1122175488, 1123138944, 1124103168, 1125068288, 1126034176, 1127000960, 1127968512, 1128936960, 1129906176, 1130876160, 1131847168, 1132818816, 1133791488, 1134764800, 1135739136, 1136714112, 1137690112, 1138666880, 1139644416, 1140622848, 1141602176, 1142582272, 1143563136, 1144545024, 1145527680, 1146511104, 1147495424, 1148480640, 1149466624, 1150453504, 1151441152, 1152429824, 1153419136, 1154409472, 1155400576, 1156392448, 1157385344, 1158379008, 1159373440, 1160368896, 1161365120, 1162362112, 1163360128, 1164358912, 1165358592, 1166359040, 1167360384, 1168362624, 1169365760, 1170369664, 1171374464, 1172380160, 1173386752, 1174394112, 1175402368, 1176411520, 1177421568, 1178432384, 1179444096, 1180456704, 1181470208, 1182484480, 1183499776, 1184515840, 1185532800, 1186550656, 1187569280, 1188588928, 1189609344, 1190630656, 1191652864, 1192675968, 1193699968, 1194724736, 1195750528, 1196777088, 1197804544, 1198832896, 1199862144, 1200892288]

/-- rows 5600 to 5699 of `kcorrect-default-v4.fits` -/
def defaultUnits56 : List Nat :=
  [1201923328, 1202955264, 1203987968, 1205021696, 1206056192, 1207091712, 1208128000, 1209165312, 1210203392, 1211242368, 1212282240, 1213323136, 1214364800, 1215407360, 1216450816, 1217495168, 1218540416, 1219586688, 1220633728, 1221681664, 1222730496, 1223780352, 1224830976, 1225882496, 1226935040, 1227988352, 1229042688, 1230097792, 1231153920, 1232210944, 1233268864, 1234327680, 1235387392, 1236448000, 1237509504, 1238572032, 1239635328, 1240699648, 1241764864, 1242830976, 1243897984, 1244965888, 1246034688, 1247104512, 1248175232, 1249246848, 1250319360, 1251392768, 1252467200, 1253542528, 1254618752, 1255695872, 1256773888, 1257852928, 1258932864, 1260013696, 1261095424, 1262178176, 1263261824, 1264346368, 1265431808, 1266518272, 1267605632, 1268693888, 1269783168, 1270873344, 1271964416, 1273056384, 1274149376, 1275243264, 1276338176, 1277433984, 1278530688, 1279628288, 1280726912, 1281826560, 1282926976, 1284028416, 1285130880, 1286234240, 1287338496, 1288443648, 1289549952, 1290657024, 1291765120, 1292874112, 1293984128, 1295095040, 1296206976, 1297319808, 1298433664, 1299548416, 1300664064, 1301780736, 1302898432, 1304017024, 1305136512, 1306257024, 1307378560, 1308500992]

/-- rows 5700 to 5799 of `kcorrect-default-v4.fits` -/
def defaultUnits57 : List Nat :=
  [1309624320, 1310748672, 1311874048, 1313000320, 1314127616, 1315255808, 1316385024, 1317515264, 1318646400, 1319778432, 1320911616, 1322045568, 1323180672, 1324316672, 1325453696, 1326591616, 1327730560, 1328870400, 1330011392, 1331153152, 1332296064, 1333439872, 1334584704, 1335730560, 1336877312, 1338025088, 1339173760, 1340323584, 1341474304, 1342625920, 1343778688, 1344932352, 1346087040, 1347242752, 1348399360, 1349556992, 1350715648, 1351875328, 1353035904, 1354197632, 1355360256, 1356523904, 1357688448, 1358854144, 1360020736, 1361188352, 1362356992, 1363526656, 1364697344, 1365868928, 1367041664, 1368215296, 1369389952, 1370565632, 1371742336, 1372920064, 1374098688, 1375278464, 1376459136, 1377640960, 1378823680, 1380007424, 1381192320, 1382378112, 1383564928, 1384752768, 1385941632, 1387131520, 1388322432, 1389514368, 1390707328, 1391901312, 1393096320, 1394292352, 1395489408, 1396687488, 1397886592, 1399086720, 1400287872, 1401490048, 1402693376, 1403897600, 1405102976, 1406309248, 1407516672, 1408724992, 1409934464, 1411144960, 1412356480, 1413569024, 1414782720, 1415997312, 1417213056, 1418429696, 1419647488, 1420866304, 1422086272, 1423307136, 1424529152, 1425752192]

/-- rows 5800 to 5899 of `kcorrect-default-v4.fits` -/
def defaultUnits58 : List Nat :=
  [1426976256, 1428201344, 1429427456, 1430654720, 1431883008, 1433112320, 1434342656, 1435574144, 1436806656, 1438040192, 1439274880, 1440510464, 1441747200, 1442985088, 1444223872, 1445463808, 1446704768, 1447946880, 1449190016, 1450434176, 1451679488, 1452925824, 1454173184, 1455421696, 1456671232, 1457921792, 1459173504, 1460426240, 1461680128, 1462935040, 1464190976, 1465448064, 1466706176, 1467965440, 1469225728, 1470487168, 1471749632, 1473013120, 1474277760, 1475543552, 1476810368, 1478078208, 1479347200, 1480617344, 1481888512, 1483160704, 1484434048, 1485708544, 1486984064, 1488260736, 1489538432, 1490817280, 1492097280, 1493378304, 1494660352, 1495943552, 1497227904, 1498513408, 1499799936, 1501087616, 1502376320, 1503666176, 1504957056, 1506249216, 1507542400, 1508836608, 1510132096, 1511428608, 1512726144, 1514024960, 1515324800, 1516625792, 1517927808, 1519230976, 1520535296, 1521840768, 1523147392, 1524455040, 1525763840, 1527073792, 1528384896, 1529697024, 1531010304, 1532324736, 1533640320, 1534957056, 1536274816, 1537593856, 1538913920, 1540235136, 1541557504, 1542880896, 1544205568, 1545531392, 1546858240, 1548186240, 1549515520, 1550845824, 1552177280, 1553509888]

/-- rows 5900 to 5999 of `kcorrect-default-v4.fits` -/
def defaultUnits59 : List Nat :=
  [1554843648, 1556178560, 1557514624, 1558851712, 1560190080, 1561529600, 1562870272, 1564211968, 1565554944, 1566899072, 1568244352, 1569590656, 1570938240, 1572286976, 1573636864, 1574987904, 1576340096, 1577693440, 1579047936, 1580403584, 1581760512, 1583118464, 1584477696, 1585837952, 1587199488, 1588562176, 1589926016, 1591291008, 1592657280, 1594024576, 1595393152, 1596762880, 1598133760, 1599505792, 1600878976, 1602253440, 1603629056, 1605005824, 1606383744, 1607762944, 1609143296, 1610524800, 1611907456, 1613291392, 1614676480, 1616062720, 1617450112, 1618838784, 1620228608, 1621619712, 1623011968, 1624405376, 1625799936, 1627195776, 1628592768, 1629991040, 1631390464, 1632791040, 1634192896, 1635595904, 1637000064, 1638405504, 1639812224, 1641219968, 1642629120, 1644039296, 1645450880, 1646863488, 1648277376, 1649692544, 1651108864, 1652526464, 1653945216, 1655365120, 1656786304, 1658208768, 1659632384, 1661057280, 1662483328, 1663910656, 1665339264, 1666769024, 1668199936, 1669632128, 1671065600, 1672500352, 1673936256, 1675373312, 1676811776, 1678251392, 1679692160, 1681134336, 1682577664, 1684022144, 1685468032, 1686915072, 1688363264, 1689812864, 1691263616, 1692715648]

/-- rows 6000 to 6099 of `kcorrect-default-v4.fits` -/
def defaultUnits60 : List Nat :=
  [1694168832, 1695623424, 1697079168, 1698536192, 1699994496, 1701453952, 1702914688, 1704376704, 1705840000, 1707304576, 1708770304, 1710237440, 1711705728, 1713175296, 1714646144, 1716118272, 1717591552, 1719066240, 1720542080, 1722019200, 1723497728, 1724977408, 1726458368, 1727940608, 1729424128, 1730908800, 1732394880, 1733882240, 1735370880, 1736860800, 1738351872, 1739844352, 1741338112, 1742833152, 1744329344, 1745826944, 1747325824, 1748825984, 1750327424, 1751830144, 1753334144, 1754839424, 1756346112, 1757853952, 1759363200, 1760873600, 1762385408, 1763898496, 1765412864, 1766928640, 1768445568, 1769963904, 1771483392, 1773004288, 1774526464, 1776050048, 1777574784, 1779100928, 1780628352, 1782157184, 1783687168, 1785218560, 1786751232, 1788285312, 1789820544, 1791357184, 1792895104, 1794434432, 1795975040, 1797516928, 1799060224, 1800604800, 1802150656, 1803697920, 1805246464, 1806796288, 1808347520, 1809900032, 1811453952, 1813009152, 1814565632, 1816123520, 1817682816, 1819243392, 1820805248, 1822368512, 1823933056, 1825499008, 1827066240, 1828634880, 1830204800, 1831776128, 1833348736, 1834922752, 1836498176, 1838074880, 1839652864, 1841232256, 1842813056, 1844395264]

/-- rows 6100 to 6199 of `kcorrect-default-v4.fits` -/
def defaultUnits61 : List Nat :=
  [1845978752, 1847563520, 1849149824, 1850737408, 1852326272, 1853916544, 1855508224, 1857101312, 1858695680, 1860291456, 1861888640, 1863487104, 1865086976, 1866688256, 1868290816, 1869894912, 1871500288, 1873106944, 1874715136, 1876324608, 1877935616, 1879547904, 1881161472, 1882776576, 1884392960, 1886010880, 1887630080, 1889250688, 1890872704, 1892496128, 1894120832, 1895747072, 1897374592, 1899003648, 1900633984, 1902265728, 1903898880, 1905533440, 1907169408, 1908806784, 1910445696, 1912085888, 1913727488, 1915370496, 1917014912, 1918660736, 1920307968, 1921956608, 1923606656, 1925258240, 1926911104, 1928565504, 1930221184, 1931878400, 1933537024, 1935197056, 1936858496, 1938521344, 1940185600, 1941851392, 1943518464, 1945187072, 1946857088, 1948528640, 1950201472, 1951875840, 1953551616, 1955228800, 1956907392, 1958587520, 1960269056, 1961952000, 1963636480, 1965322240, 1967009536, 1968698368, 1970388608, 1972080256, 1973773312, 1975467904, 1977163904, 1978861440, 1980560384, 1982260736, 1983962624, 1985665920, 1987370624, 1989076864, 1990784640, 1992493824, 1994204416, 1995916544, 1997630080, 1999345152, 2001061632, 2002779648, 2004499200, 2006220032, 2007942528, 2009666432]

/-- rows 6200 to 6299 of `kcorrect-default-v4.fits` -/
def defaultUnits62 : List Nat :=
  [2011391744, 2013118720, 2014846976, 2016576896, 2018308096, 2020040960, 2021775232, 2023511040, 2025248256, 2026987008, 2028727296, 2030468992, 2032212352, 2033956992, 2035703296, 2037451008, 2039200256, 2040950912, 2042703232, 2044456960, 2046212224, 2047969024, 2049727232, 2051486976, 2053248256, 2055011072, 2056775424, 2058541184, 2060308608, 2062077440, 2063847808, 2065619712, 2067393152, 2069168128, 2070944512, 2072722560, 2074502016, 2076283136, 2078065664, 2079849728, 2081635456, 2083422592, 2085211264, 2087001472, 2088793344, 2090586624, 2092381440, 2094177920, 2095975808, 2097775360, 2099576320, 2101378944, 2103182976, 2104988672, 2106795904, 2108604672, 2110414976, 2112226944, 2114040320, 2115855360, 2117671808, 2119489920, 2121309696, 2123130880, 2124953728, 2126777984, 2128603904, 2130431488, 2132260480, 2134091136, 2135923328, 2137757184, 2139592448, 2141429376, 2143267968, 2145107968, 2146949632, 2148792832, 2150637824, 2152484096, 2154332160, 2156181760, 2158032896, 2159885568, 2161740032, 2163596032, 2165453568, 2167312640, 2169173248, 2171035648, 2172899584, 2174765056, 2176632320, 2178500864, 2180371200, 2182243328, 2184116736, 2185991936, 2187868672, 2189747200]

/-- rows 6300 to 6399 of `kcorrect-default-v4.fits` -/
def defaultUnits63 : List Nat :=
  [2191627008, 2193508608, 2195392000, 2197276672, 2199163136, 2201051392, 2202940928, 2204832256, 2206725120, 2208619776, 2210515968, 2212413696, 2214313216, 2216214272, 2218117120, 2220021504, 2221927424, 2223834880, 2225744128, 2227655168, 2229567744, 2231481856, 2233397760, 2235315200, 2237234176, 2239154944, 2241077504, 2243001344, 2244927232, 2246854656, 2248783616, 2250714112, 2252646656, 2254580480, 2256516096, 2258453504, 2260392448, 2262333184, 2264275456, 2266219520, 2268165120, 2270112256, 2272061440, 2274011904, 2275964416, 2277918464, 2279874048, 2281831424, 2283790336, 2285751296, 2287713536, 2289677568, 2291643392, 2293611008, 2295580160, 2297550848, 2299523584, 2301497856, 2303473664, 2305451264, 2307430656, 2309411584, 2311394304, 2313378816, 2315364864, 2317352704, 2319342336, 2321333504, 2323326464, 2325321216, 2327317504, 2329315584, 2331315456, 2333317120, 2335320320, 2337325312, 2339331840, 2341340416, 2343350528, 2345362432, 2347375872, 2349391360, 2351408384, 2353427200, 2355447552, 2357469952, 2359493888, 2361519616, 2363547136, 2365576192, 2367607296, 2369639936, 2371674368, 2373710592, 2375748352, 2377788160, 2379829504, 2381872640, 2383917568, 2385964288]

/-- rows 6400 to 6499 of `kcorrect-default-v4.fits` -/
def defaultUnits64 : List Nat :=
  [2388012800, 2390063104, 2392114944, 2394168576, 2396224256, 2398281472, 2400340480, 2402401280, 2404463872, 2406528256, 2408594176, 2410662144, 2412731904, 2414803200, 2416876544, 2418951424, 2421028096, 2423106816, 2425187072, 2427269120, 2429353216, 2431438848, 2433526272, 2435615488, 2437706752, 2439799552, 2441894144, 2443990784, 2446088960, 2448188928, 2450290944, 2452394496, 2454500096, 2456607232, 2458716416, 2460827392, 2462940160, 2465054464, 2467170816, 2469289216, 2471409152, 2473530880, 2475654656, 2477779968, 2479907328, 2482036480, 2484167168, 2486300160, 2488434688, 2490571008, 2492709376, 2494849536, 2496991232, 2499135232, 2501280768, 2503428096, 2505577472, 2507728640, 2509881600, 2512036352, 2514193152, 2516351744, 2518512128, 2520674304, 2522838528, 2525004288, 2527172096, 2529341952, 2531513344, 2533686784, 2535862016, 2538039296, 2540218368, 2542399232, 2544581888, 2546766592, 2548953088, 2551141376, 2553331712, 2555523840, 2557717760, 2559913728, 2562111488, 2564311296, 2566512896, 2568716288, 2570921728, 2573128960, 2575337984, 2577549056, 2579761920, 2581976832, 2584193536, 2586412032, 2588632576, 2590855168, 2593079552, 2595305728, 2597533952, 2599763968]

/-- rows 6500 to 6599 of `kcorrect-default-v4.fits` -/
def defaultUnits65 : List Nat :=
  [2601996032, 2604229888, 2606465792, 2608703488, 2610943232, 2613184768, 2615428352, 2617673728, 2619921152, 2622170624, 2624421888, 2626674944, 2628930048, 2631187200, 2633446144, 2635706880, 2637969920, 2640234752, 2642501376, 2644770048, 2647040768, 2649313280, 2651587840, 2653864448, 2656142848, 2658423296, 2660705536, 2662990080, 2665276160, 2667564544, 2669854720, 2672146944, 2674440960, 2676737280, 2679035136, 2681335296, 2683637248, 2685941248, 2688247296, 2690555392, 2692865280, 2695177216, 2697491200, 2699806976, 2702125056, 2704444928, 2706766592, 2709090560, 2711416320, 2713744384, 2716074240, 2718406144, 2720739840, 2723075840, 2725413632, 2727753472, 2730095360, 2732439296, 2734785280, 2737133056, 2739483136, 2741835008, 2744188928, 2746545152, 2748903168, 2751262976, 2753625088, 2755989248, 2758355456, 2760723456, 2763093760, 2765466112, 2767840256, 2770216448, 2772594944, 2774975232, 2777357824, 2779742208, 2782128640, 2784517376, 2786907904, 2789300480, 2791695360, 2794092032, 2796491008, 2798891776, 2801294848, 2803699968, 2806106880, 2808516096, 2810927360, 2813340672, 2815756032, 2818173440, 2820592896, 2823014656, 2825438208, 2827864064, 2830291712, 2832721664]

/-- rows 6600 to 6699 of `kcorrect-default-v4.fits` -/
def defaultUnits66 : List Nat :=
  [2835153664, 2837587968, 2840024064, 2842462208, 2844902656, 2847345152, 2849789696, 2852236288, 2854685184, 2857136128, 2859588864, 2862044160, 2864501248, 2866960640, 2869421824, 2871885568, 2874351104, 2876818944, 2879288832, 2881760768, 2884234752, 2886711040, 2889189376, 2891670016, 2894152448, 2896637184, 2899124224, 2901613056, 2904104448, 2906597632, 2909093120, 2911590656, 2914090240, 2916592128, 2919096320, 2921602304, 2924110592, 2926621184, 2929133824, 2931648512, 2934165504, 2936684544, 2939205888, 2941729280, 2944254976, 2946782720, 2949312512, 2951844864, 2954379008, 2956915456, 2959454208, 2961995008, 2964537856, 2967083008, 2969630464, 2972179968, 2974731776, 2977285632, 2979841792, 2982400000, 2984960768, 2987523328, 2990088192, 2992655360, 2995224576, 2997796352, 3000369920, 3002945792, 3005523968, 3008104448, 3010686976, 3013271808, 3015858944, 3018448128, 3021039616, 3023633152, 3026229248, 3028827392, 3031427584, 3034030336, 3036635136, 3039242240, 3041851392, 3044463104, 3047076864, 3049692928, 3052311040, 3054931712, 3057554432, 3060179456, 3062806784, 3065436416, 3068068096, 3070702336, 3073338624, 3075977216, 3078618112, 3081261056, 3083906560, 3086554112]

/-- rows 6700 to 6799 of `kcorrect-default-v4.fits` -/
def defaultUnits67 : List Nat :=
  [3089204224, 3091856384, 3094510848, 3097167616, 3099826688, 3102488064, 3105151488, 3107817472, 3110485760, 3113156096, 3115828992, 3118503936, 3121181440, 3123860992, 3126542848, 3129227264, 3131913728, 3134602752, 3137293824, 3139987456, 3142683136, 3145381376, 3148081664, 3150784512, 3153489664, 3156196864, 3158906624, 3161618688, 3164333056, 3167049728, 3169768960, 3172490240, 3175214080, 3177939968, 3180668416, 3183399168, 3186132224, 3188867584, 3191605504, 3194345472, 3197088000, 3199832832, 3202579968, 3205329664, 3208081408, 3210835712, 3213592320, 3216351488, 3219112704, 3221876480, 3224642560, 3227411200, 3230182144, 3232955392, 3235730944, 3238508800, 3241289216, 3244072192, 3246857216, 3249644800, 3252434688, 3255227136, 3258021888, 3260818944, 3263618560, 3266420480, 3269224960, 3272031744, 3274840832, 3277652480, 3280466432, 3283282688, 3286101760, 3288922880, 3291746560, 3294572800, 3297401088, 3300232192, 3303065600, 3305901312, 3308739584, 3311580416, 3314423552, 3317268992, 3320116992, 3322967552, 3325820416, 3328675840, 3331533568, 3334393856, 3337256448, 3340121600, 3342989312, 3345859328, 3348731904, 3351607040, 3354484480, 3357364480, 3360246784, 3363131904]

/-- rows 6800 to 6899 of `kcorrect-default-v4.fits` -/
def defaultUnits68 : List Nat :=
  [3366019328, 3368909056, 3371801344, 3374696192, 3377593600, 3380493312, 3383395584, 3386300416, 3389207808, 3392117504, 3395029760, 3397944576, 3400861952, 3403781632, 3406703872, 3409628672, 3412556032, 3415485696, 3418418176, 3421352960, 3424290304, 3427230208, 3430172672, 3433117696, 3436065024, 3439015168, 3441967616, 3444922624, 3447880448, 3450840576, 3453803264, 3456768512, 3459736064, 3462706432, 3465679360, 3468654848, 3471632896, 3474613248, 3477596416, 3480582144, 3483570432, 3486561024, 3489554432, 3492550400, 3495548928, 3498550016, 3501553664, 3504559872, 3507568640, 3510579968, 3513594112, 3516610560, 3519629824, 3522651392, 3525675776, 3528702720, 3531732224, 3534764544, 3537799168, 3540836608, 3543876608, 3546919168, 3549964288, 3553011968, 3556062464, 3559115520, 3562171136, 3565229312, 3568290304, 3571353856, 3574419968, 3577488640, 3580560128, 3583634176, 3586711040, 3589790208, 3592872192, 3595956992, 3599044096, 3602134016, 3605226752, 3608322048, 3611419904, 3614520320, 3617623552, 3620729344, 3623837952, 3626949120, 3630063104, 3633179648, 3636299008, 3639420928, 3642545408, 3645672704, 3648802560, 3651935232, 3655070720, 3658208768, 3661349376, 3664492800]

/-- rows 6900 to 6999 of `kcorrect-default-v4.fits` -/
def defaultUnits69 : List Nat :=
  [3667639040, 3670787840, 3673939200, 3677093632, 3680250368, 3683410176, 3686572544, 3689737472, 3692905216, 3696075776, 3699249152, 3702425088, 3705603840, 3708785152, 3711969280, 3715156224, 3718345728, 3721538048, 3724733184, 3727931136, 3731131648, 3734334976, 3737541120, 3740749824, 3743961600, 3747175936, 3750392832, 3753612800, 3756835328, 3760060928, 3763289088, 3766519808, 3769753600, 3772990208, 3776229376, 3779471360, 3782716160, 3785964032, 3789214208, 3792467456, 3795723520, 3798982400, 3802243840, 3805508352, 3808775424, 3812045312, 3815318272, 3818593792, 3821872384, 3825153536, 3828437504, 3831724544, 3835014144, 3838306560, 3841602048, 3844900096, 3848201216, 3851504896, 3854811648, 3858121216, 3861433600, 3864748800, 3868066816, 3871387648, 3874711552, 3878038016, 3881367552, 3884699904, 3888035072, 3891373056, 3894713856, 3898057728, 3901404416, 3904753920, 3908106240, 3911461632, 3914819584, 3918180608, 3921544704, 3924911360, 3928281088, 3931653632, 3935029248, 3938407680, 3941788928, 3945172992, 3948560128, 3951950080, 3955343104, 3958738944, 3962137600, 3965539328, 3968943872, 3972351488, 3975761920, 3979175168, 3982591488, 3986010624, 3989432832, 3992857856]

/-- rows 7000 to 7099 of `kcorrect-default-v4.fits` -/
def defaultUnits70 : List Nat :=
  [3996285952, 3999716864, 4003150848, 4006587648, 4010027520, 4013470464, 4016915968, 4020364800, 4023816448, 4027270912, 4030728704, 4034189056, 4037652736, 4041119232, 4044588544, 4048061184, 4051536640, 4055014912, 4058496256, 4061980672, 4065468160, 4068958464, 4072451840, 4075948288, 4079447552, 4082949888, 4086455296, 4089963776, 4093475072, 4096989440, 4100506880, 4104027392, 4107550976, 4111077376, 4114606848, 4118139392, 4121675008, 4125213696, 4128755456, 4132300032, 4135847936, 4139398656, 4142952448, 4146509312, 4150069248, 4153632256, 4157198336, 4160767488, 4164339712, 4167915008, 4171493376, 4175074816, 4178659328, 4182246656, 4185837312, 4189431040, 4193027840, 4196627712, 4200230656, 4203836928, 4207446016, 4211058176, 4214673664, 4218292224, 4221913600, 4225538304, 4229166080, 4232797184, 4236431104, 4240068352, 4243708672, 4247352064, 4250998528, 4254648064, 4258300928, 4261956864, 4265615872, 4269278208, 4272943616, 4276612096, 4280283648, 4283958528, 4287636480, 4291317504, 4295001600, 4298689024, 4302380032, 4306073600, 4309770752, 4313470464, 4317173760, 4320880640, 4324590080, 4328303104, 4332018688, 4335738368, 4339460608, 4343186432, 4346914816, 4350646784]

/-- rows 7100 to 7199 of `kcorrect-default-v4.fits` -/
def defaultUnits71 : List Nat :=
  [4354382336, 4358120448, 4361862144, 4365606912, 4369355264, 4373106176, 4376860672, 4380618752, 4384379392, 4388143616, 4391910912, 4395681792, 4399455744, 4403232768, 4407013376, 4410796544, 4414583808, 4418373632, 4422167040, 4425963520, 4429763584, 4433566720, 4437372928, 4441182720, 4444995584, 4448812032, 4452631552, 4456454144, 4460280320, 4464109568, 4467942400, 4471778304, 4475617280, 4479459840, 4483305472, 4487154688, 4491006976, 4494862848, 4498721792, 4502584320, 4506449920, 4510318592, 4514190848, 4518066688, 4521945600, 4525828096, 4529713664, 4533602304, 4537495040, 4541390336, 4545289216, 4549191680, 4553097216, 4557006336, 4560918528, 4564834304, 4568753664, 4572676096, 4576602112, 4580531200, 4584463872, 4588399616, 4592338944, 4596281856, 4600227840, 4604177408, 4608130048, 4612086272, 4616046080, 4620008960, 4623975424, 4627945472, 4631918592, 4635895296, 4639875584, 4643858944, 4647845888, 4651836416, 4655830016, 4659827200, 4663827968, 4667832320, 4671839744, 4675850752, 4679865344, 4683883008, 4687904256, 4691929088, 4695956992, 4699988992, 4704024064, 4708062720, 4712104960, 4716150272, 4720199168, 4724251648, 4728307712, 4732367360, 4736430080, 4740496384]

/-- rows 7200 to 7299 of `kcorrect-default-v4.fits` -/
def defaultUnits72 : List Nat :=
  [4744566272, 4748639744, 4752716800, 4756796928, 4760881152, 4764968448, 4769059328, 4773153792, 4777251840, 4781353472, 4785458176, 4789566976, 4793678848, 4797794304, 4801913344, 4806035968, 4810162176, 4814291968, 4818425344, 4822562304, 4826702336, 4830846464, 4834993664, 4839144960, 4843299328, 4847457792, 4851619328, 4855784960, 4859953664, 4864125952, 4868302336, 4872481792, 4876664832, 4880851968, 4885042176, 4889236480, 4893433856, 4897635328, 4901839872, 4906048512, 4910260224, 4914476032, 4918695424, 4922918400, 4927144960, 4931375104, 4935608832, 4939846144, 4944087040, 4948332032, 4952580096, 4956832256, 4961088000, 4965347328, 4969610240, 4973876736, 4978147328, 4982420992, 4986698752, 4990980096, 4995265024, 4999553536, 5003845632, 5008141824, 5012441600, 5016744960, 5021051904, 5025362944, 5029677056, 5033995264, 5038317568, 5042642944, 5046972416, 5051305472, 5055642112, 5059982336, 5064326656, 5068674560, 5073026560, 5077381632, 5081740800, 5086104064, 5090470400, 5094840832, 5099214848, 5103592960, 5107974656, 5112359936, 5116749312, 5121141760, 5125538816, 5129939456, 5134343680, 5138751488, 5143163392, 5147578880, 5151998464, 5156421632, 5160848384, 5165279232]

/-- rows 7300 to 7399 of `kcorrect-default-v4.fits` -/
def defaultUnits73 : List Nat :=
  [5169714176, 5174152192, 5178594816, 5183040512, 5187490304, 5191944192, 5196401664, 5200863232, 5205328384, 5209797120, 5214269952, 5218746880, 5223227392, 5227711488, 5232199680, 5236691968, 5241187840, 5245687296, 5250191360, 5254698496, 5259210240, 5263725056, 5268244480, 5272767488, 5277294080, 5281825280, 5286359552, 5290898432, 5295440896, 5299986944, 5304537600, 5309091328, 5313649664, 5318211584, 5322777600, 5327347200, 5331920896, 5336498688, 5341080576, 5345666048, 5350255616, 5354848768, 5359446016, 5364047360, 5368652800, 5373261824, 5377874944, 5382492160, 5387113472, 5391738368, 5396367360, 5401000448, 5405637632, 5410278400, 5414923264, 5419572224, 5424225280, 5428881920, 5433543168, 5438208000, 5442876928, 5447549952, 5452226560, 5456907776, 5461592576, 5466281472, 5470974464, 5475671552, 5480372736, 5485078016, 5489787392, 5494500352, 5499217408, 5503939072, 5508664320, 5513393664, 5518127104, 5522864640, 5527606272, 5532352000, 5537101824, 5541855744, 5546613760, 5551375360, 5556141568, 5560911872, 5565686272, 5570464256, 5575246848, 5580033536, 5584824320, 5589619200, 5594417664, 5599220736, 5604027904, 5608839168, 5613655040, 5618474496, 5623298048, 5628125696]

/-- rows 7400 to 7499 of `kcorrect-default-v4.fits` -/
def defaultUnits74 : List Nat :=
  [5632957952, 5637793792, 5642634240, 5647478784, 5652327424, 5657180160, 5662036992, 5666897920, 5671763456, 5676632576, 5681506304, 5686384128, 5691266048, 5696152576, 5701042688, 5705937408, 5710836224, 5715739136, 5720646144, 5725557760, 5730473472, 5735393280, 5740317184, 5745245696, 5750178304, 5755115008, 5760055808, 5765001216, 5769950720, 5774904320, 5779862528, 5784824832, 5789791232, 5794761728, 5799736832, 5804716032, 5809699840, 5814687744, 5819679744, 5824676352, 5829677056, 5834681856, 5839691264, 5844704768, 5849722880, 5854745088, 5859771904, 5864802816, 5869837824, 5874877440, 5879921152, 5884969472, 5890021888, 5895078400, 5900139520, 5905205248, 5910275072, 5915349504, 5920428032, 5925510656, 5930597888, 5935689728, 5940785664, 5945886208, 5950990848, 5956100096, 5961213952, 5966331904, 5971453952, 5976580608, 5981711872, 5986847232, 5991987200, 5997131776, 6002280448, 6007433728, 6012591616, 6017753600, 6022920192, 6028090880, 6033266176, 6038446080, 6043630080, 6048819200, 6054012416, 6059209728, 6064411648, 6069618688, 6074829312, 6080045056, 6085264896, 6090489344, 6095718400, 6100951552, 6106189824, 6111432192, 6116679168, 6121930240, 6127186432, 6132446720]

/-- rows 7500 to 7599 of `kcorrect-default-v4.fits` -/
def defaultUnits75 : List Nat :=
  [6137711616, 6142981120, 6148255232, 6153533952, 6158816768, 6164104192, 6169396736, 6174693376, 6179994624, 6185300480, 6190610432, 6195925504, 6201245184, 6206568960, 6211897344, 6217230848, 6222568448, 6227910656, 6233257984, 6238609408, 6243965440, 6249326080, 6254691328, 6260061184, 6265435648, 6270814720, 6276198912, 6281587200, 6286980096, 6292377600, 6297780224, 6303186944, 6308598272, 6314014720, 6319435264, 6324860928, 6330291200, 6335726080, 6341165568, 6346609664, 6352058368, 6357511680, 6362970112, 6368433152, 6373900288, 6379372544, 6384849920, 6390331392, 6395817984, 6401308672, 6406804480, 6412304896, 6417810432, 6423320576, 6428834816, 6434354688, 6439878656, 6445407744, 6450940928, 6456479744, 6462022656, 6467570688, 6473123328, 6478680576, 6484242944, 6489809920, 6495381504, 6500958208, 6506539520, 6512125952, 6517716480, 6523312640, 6528912896, 6534518272, 6540128256, 6545743360, 6551363072, 6556987904, 6562617344, 6568251392, 6573890560, 6579534848, 6585183232, 6590837248, 6596495360, 6602159104, 6607826944, 6613500416, 6619178496, 6624861184, 6630548992, 6636241408, 6641938944, 6647641088, 6653348352, 6659060736, 6664777728, 6670499840, 6676226560, 6681958400]

/-- rows 7600 to 7699 of `kcorrect-default-v4.fits` -/
def defaultUnits76 : List Nat :=
  [6687695360, 6693436928, 6699183616, 6704934912, 6710691328, 6716452864, 6722219008, 6727990784, 6733766656, 6739548160, 6745334272, 6751125504, 6756921344, 6762722816, 6768528896, 6774339584, 6780155904, 6785976832, 6791802880, 6797634048, 6803469824, 6809311232, 6815157248, 6821008384, 6826864128, 6832725504, 6838591488, 6844462592, 6850339328, 6856220160, 6862106624, 6867998208, 6873894400, 6879796224, 6885702656, 6891614208, 6897530880, 6903453184, 6909380096, 6915311616, 6921248768, 6927191040, 6933138432, 6939090944, 6945048064, 6951010816, 6956978688, 6962951680, 6968929280, 6974912512, 6980900864, 6986894336, 6992892928, 6998896640, 7004905472, 7010919424, 7016938496, 7022962688, 7028992512, 7035026944, 7041067008, 7047111680, 7053161984, 7059217408, 7065277952, 7071344128, 7077414912, 7083491328, 7089572864, 7095659520, 7101751296, 7107848704, 7113950720, 7120058368, 7126171648, 7132289536, 7138413056, 7144541696, 7150675456, 7156814336, 7162958848, 7169108480, 7175263744, 7181424128, 7187589632, 7193760256, 7199936512, 7206117888, 7212304384, 7218496512, 7224694272, 7230896640, 7237104640, 7243318272, 7249537024, 7255760896, 7261990400, 7268225024, 7274465280, 7280710656]

/-- rows 7700 to 7799 of `kcorrect-default-v4.fits` -/
def defaultUnits77 : List Nat :=
  [7286961152, 7293217280, 7299479040, 7305745920, 7312017920, 7318295552, 7324578816, 7330867200, 7337161216, 7343460352, 7349765120, 7356075008, 7362390528, 7368711680, 7375037952, 7381369856, 7387706880, 7394049536, 7400397824, 7406751232, 7413110272, 7419474432, 7425844736, 7432220160, 7438600704, 7444987392, 7451379200, 7457776128, 7464179200, 7470587392, 7477001216, 7483420672, 7489845248, 7496275968, 7502711808, 7509153280, 7515599872, 7522052608, 7528510464, 7534973952, 7541443072, 7547917824, 7554397696, 7560883712, 7567374848, 7573871616, 7580374528, 7586882560, 7593396224, 7599915520, 7606439936, 7612970496, 7619506688, 7626048512, 7632595456, 7639148544, 7645707264, 7652271104, 7658841088, 7665416192, 7671997440, 7678584320, 7685176832, 7691774464, 7698378240, 7704987648, 7711602688, 7718223360, 7724849664, 7731482112, 7738119680, 7744763392, 7751412736, 7758067200, 7764727808, 7771394560, 7778066432, 7784744448, 7791427584, 7798116864, 7804812288, 7811512832, 7818219520, 7824931328, 7831649792, 7838373376, 7845103104, 7851838464, 7858579456, 7865326592, 7872078848, 7878837760, 7885601792, 7892371968, 7899147776, 7905929728, 7912717312, 7919510528, 7926309888, 7933114880]

/-- rows 7800 to 7899 of `kcorrect-default-v4.fits` -/
def defaultUnits78 : List Nat :=
  [7939926016, 7946742784, 7953565184, 7960393728, 7967227904, 7974068224, 7980914176, 7987766272, 7994624000, 8001487872, 8008357376, 8015233024, 8022114304, 8029001728, 8035894784, 8042793984, 8049698816, 8056609792, 8063526912, 8070449664, 8077378560, 8084313600, 8091254272, 8098200576, 8105153536, 8112112128, 8119076864, 8126047232, 8133023744, 8140006400, 8146994688, 8153989120, 8160989696, 8167996416, 8175009280, 8182027776, 8189052416, 8196082688, 8203119616, 8210162176, 8217210880, 8224265728, 8231326720, 8238393856, 8245466624, 8252545536, 8259631104, 8266722304, 8273819648, 8280922624, 8288032256, 8295148032, 8302269952, 8309397504, 8316531712, 8323671552, 8330818048, 8337970176, 8345128448, 8352293376, 8359463936, 8366641152, 8373824000, 8381013504, 8388208640, 8395410432, 8402618368, 8409832448, 8417052672, 8424279040, 8431511552, 8438750208, 8445995520, 8453246464, 8460504064, 8467767808, 8475037696, 8482313728, 8489596416, 8496884736, 8504179712, 8511480832, 8518788608, 8526102016, 8533422080, 8540748288, 8548081152, 8555420160, 8562765312, 8570116608, 8577474560, 8584838656, 8592208896, 8599585792, 8606968832, 8614358016, 8621754368, 8629155840, 8636564480, 8643979264]

/-- rows 7900 to 7999 of `kcorrect-default-v4.fits` -/
def defaultUnits79 : List Nat :=
  [8651401216, 8658828288, 8666262528, 8673702912, 8681149440, 8688602112, 8696061952, 8703527936, 8711000064, 8718479360, 8725963776, 8733455360, 8740954112, 8748457984, 8755969024, 8763486208, 8771010560, 8778541056, 8786077696, 8793620480, 8801170432, 8808726528, 8816288768, 8823858176, 8831433728, 8839016448, 8846605312, 8854200320, 8861801472, 8869409792, 8877024256, 8884645888, 8892273664, 8899908608, 8907548672, 8915196928, 8922850304, 8930510848, 8938178560, 8945852416, 8953532416, 8961219584, 8968912896, 8976613376, 8984320000, 8992033792, 8999753728, 9007480832, 9015214080, 9022953472, 9030700032, 9038453760, 9046213632, 9053979648, 9061752832, 9069533184, 9077319680, 9085112320, 9092913152, 9100719104, 9108532224, 9116352512, 9124179968, 9132012544, 9139853312, 9147700224, 9155554304, 9163414528, 9171281920, 9179155456, 9187036160, 9194923008, 9202818048, 9210719232, 9218626560, 9226541056, 9234462720, 9242390528, 9250325504, 9258267648, 9266215936, 9274171392, 9282134016, 9290102784, 9298078720, 9306061824, 9314051072, 9322047488, 9330051072, 9338060800, 9346078720, 9354102784, 9362132992, 9370171392, 9378215936, 9386267648, 9394325504, 9402391552, 9410463744, 9418543104]

/-- rows 8000 to 8099 of `kcorrect-default-v4.fits` -/
def defaultUnits80 : List Nat :=
  [9426628608, 9434722304, 9442822144, 9450929152, 9459043328, 9467164672, 9475292160, 9483426816, 9491568640, 9499717632, 9507873792, 9516037120, 9524206592, 9532383232, 9540568064, 9548759040, 9556956160, 9565161472, 9573373952, 9581592576, 9589819392, 9598052352, 9606292480, 9614539776, 9622794240, 9631055872, 9639324672, 9647600640, 9655883776, 9664173056, 9672470528, 9680775168, 9689085952, 9697404928, 9705730048, 9714063360, 9722402816, 9730749440, 9739104256, 9747465216, 9755834368, 9764209664, 9772593152, 9780982784, 9789380608, 9797785600, 9806196736, 9814616064, 9823042560, 9831475200, 9839916032, 9848364032, 9856819200, 9865282560, 9873752064, 9882228736, 9890713600, 9899204608, 9907703808, 9916210176, 9924723712, 9933244416, 9941772288, 9950307328, 9958850560, 9967400960, 9975957504, 9984522240, 9993095168, 10001674240, 10010261504, 10018854912, 10027456512, 10036066304, 10044682240, 10053306368, 10061937664, 10070576128, 10079221760, 10087875584, 10096536576, 10105204736, 10113880064, 10122563584, 10131254272, 10139952128, 10148658176, 10157370368, 10166091776, 10174819328, 10183555072, 10192297984, 10201048064, 10209806336, 10218571776, 10227345408, 10236125184, 10244914176, 10253709312, 10262512640]

/-- rows 8100 to 8199 of `kcorrect-default-v4.fits` -/
def defaultUnits81 : List Nat :=
  [10271323136, 10280141824, 10288967680, 10297800704, 10306641920, 10315491328, 10324346880, 10333210624, 10342082560, 10350961664, 10359847936, 10368742400, 10377645056, 10386554880, 10395471872, 10404397056, 10413329408, 10422269952, 10431217664, 10440173568, 10449136640, 10458107904, 10467086336, 10476072960, 10485066752, 10494068736, 10503077888, 10512095232, 10521120768, 10530153472, 10539194368, 10548242432, 10557298688, 10566362112, 10575433728, 10584513536, 10593600512, 10602695680, 10611799040, 10620909568, 10630027264, 10639154176, 10648288256, 10657430528, 10666579968, 10675737600, 10684903424, 10694076416, 10703257600, 10712446976, 10721644544, 10730849280, 10740062208, 10749283328, 10758511616, 10767748096, 10776992768, 10786245632, 10795505664, 10804773888, 10814050304, 10823334912, 10832626688, 10841927680, 10851235840, 10860552192, 10869875712, 10879208448, 10888548352, 10897896448, 10907252736, 10916617216, 10925989888, 10935370752, 10944758784, 10954155008, 10963559424, 10972972032, 10982392832, 10991821824, 11001259008, 11010704384, 11020156928, 11029618688, 11039087616, 11048565760, 11058051072, 11067544576, 11077047296, 11086557184, 11096075264, 11105601536, 11115136000, 11124678656, 11134230528, 11143789568, 11153356800, 11162932224, 11172515840, 11182107648]

/-- rows 8200 to 8299 of `kcorrect-default-v4.fits` -/
def defaultUnits82 : List Nat :=
  [11191708672, 11201316864, 11210934272, 11220558848, 11230192640, 11239833600, 11249483776, 11259142144, 11268808704, 11278482432, 11288166400, 11297857536, 11307556864, 11317265408, 11326981120, 11336706048, 11346439168, 11356180480, 11365929984, 11375688704, 11385454592, 11395229696, 11405012992, 11414804480, 11424605184, 11434413056, 11444230144, 11454055424, 11463888896, 11473731584, 11483582464, 11493441536, 11503308800, 11513185280, 11523069952, 11532962816, 11542863872, 11552774144, 11562692608, 11572619264, 11582555136, 11592499200, 11602452480, 11612412928, 11622382592, 11632361472, 11642348544, 11652343808, 11662347264, 11672359936, 11682381824, 11692410880, 11702449152, 11712496640, 11722552320, 11732616192, 11742689280, 11752771584, 11762861056, 11772960768, 11783067648, 11793183744, 11803309056, 11813442560, 11823585280, 11833736192, 11843896320, 11854064640, 11864241152, 11874427904, 11884621824, 11894825984, 11905037312, 11915258880, 11925488640, 11935726592, 11945974784, 11956230144, 11966495744, 11976769536, 11987051520, 11997342720, 12007643136, 12017952768, 12028270592, 12038596608, 12048932864, 12059277312, 12069630976, 12079992832, 12090363904, 12100744192, 12111132672, 12121531392, 12131938304, 12142353408, 12152778752, 12163212288, 12173655040, 12184105984]

/-- rows 8300 to 8399 of `kcorrect-default-v4.fits` -/
def defaultUnits83 : List Nat :=
  [12194567168, 12205036544, 12215515136, 12226001920, 12236498944, 12247004160, 12257518592, 12268042240, 12278575104, 12289117184, 12299667456, 12310226944, 12320795648, 12331373568, 12341960704, 12352557056, 12363162624, 12373776384, 12384400384, 12395032576, 12405673984, 12416324608, 12426984448, 12437653504, 12448331776, 12459019264, 12469715968, 12480421888, 12491137024, 12501861376, 12512594944, 12523336704, 12534088704, 12544849920, 12555620352, 12566400000, 12577188864, 12587986944, 12598794240, 12609610752, 12620436480, 12631271424, 12642115584, 12652969984, 12663832576, 12674705408, 12685587456, 12696477696, 12707378176, 12718287872, 12729207808, 12740135936, 12751074304, 12762020864, 12772977664, 12783944704, 12794919936, 12805904384, 12816899072, 12827902976, 12838916096, 12849939456, 12860971008, 12872012800, 12883063808, 12894125056, 12905194496, 12916274176, 12927364096, 12938462208, 12949570560, 12960688128, 12971815936, 12982951936, 12994099200, 13005254656, 13016420352, 13027595264, 13038780416, 13049974784, 13061178368, 13072392192, 13083615232, 13094848512, 13106089984, 13117342720, 13128604672, 13139875840, 13151157248, 13162447872, 13173748736, 13185058816, 13196378112, 13207707648, 13219047424, 13230396416, 13241755648, 13253124096, 13264502784, 13275890688]

/-- rows 8400 to 8499 of `kcorrect-default-v4.fits` -/
def defaultUnits84 : List Nat :=
  [13287288832, 13298696192, 13310113792, 13321540608, 13332977664, 13344424960, 13355881472, 13367348224, 13378824192, 13390310400, 13401806848, 13413312512, 13424828416, 13436354560, 13447889920, 13459435520, 13470991360, 13482556416, 13494131712, 13505717248, 13517313024, 13528918016, 13540533248, 13552157696, 13563793408, 13575438336, 13587093504, 13598757888, 13610433536, 13622118400, 13633813504, 13645518848, 13657234432, 13668959232, 13680695296, 13692440576, 13704196096, 13715961856, 13727736832, 13739523072, 13751318528, 13763125248, 13774941184, 13786767360, 13798603776, 13810450432, 13822307328, 13834174464, 13846051840, 13857939456, 13869837312, 13881744384, 13893662720, 13905591296, 13917529088, 13929478144, 13941437440, 13953406976, 13965385728, 13977375744, 13989376000, 14001386496, 14013407232, 14025438208, 14037480448, 14049531904, 14061593600, 14073666560, 14085748736, 14097842176, 14109945856, 14122059776, 14134183936, 14146319360, 14158464000, 14170619904, 14182786048, 14194962432, 14207149056, 14219346944, 14231555072, 14243773440, 14256002048, 14268240896, 14280491008, 14292751360, 14305022976, 14317303808, 14329595904, 14341898240, 14354211840, 14366535680, 14378869760, 14391214080, 14403569664, 14415936512, 14428312576, 14440699904, 14453097472, 14465506304]

/-- rows 8500 to 8599 of `kcorrect-default-v4.fits` -/
def defaultUnits85 : List Nat :=
  [14477925376, 14490355712, 14502796288, 14515247104, 14527709184, 14540182528, 14552665088, 14565159936, 14577664000, 14590179328, 14602705920, 14615242752, 14627790848, 14640349184, 14652918784, 14665498624, 14678089728, 14690692096, 14703304704, 14715927552, 14728561664, 14741207040, 14753862656, 14766529536, 14779207680, 14791896064, 14804595712, 14817305600, 14830026752, 14842759168, 14855501824, 14868256768, 14881020928, 14893797376, 14906584064, 14919382016, 14932191232, 14945010688, 14957842432, 14970683392, 14983536640, 14996401152, 15009275904, 15022161920, 15035059200, 15047967744, 15060886528, 15073816576, 15086758912, 15099711488, 15112675328, 15125649408, 15138635776, 15151632384, 15164641280, 15177660416, 15190690816, 15203733504, 15216786432, 15229850624, 15242926080, 15256012800, 15269110784, 15282220032, 15295339520, 15308471296, 15321614336, 15334768640, 15347934208, 15361111040, 15374299136, 15387498496, 15400710144, 15413932032, 15427165184, 15440410624, 15453666304, 15466934272, 15480213504, 15493502976, 15506805760, 15520118784, 15533443072, 15546779648, 15560126464, 15573485568, 15586855936, 15600238592, 15613631488, 15627036672, 15640453120, 15653880832, 15667320832, 15680772096, 15694234624, 15707708416, 15721194496, 15734691840, 15748200448, 15761721344]

/-- rows 8600 to 8699 of `kcorrect-default-v4.fits` -/
def defaultUnits86 : List Nat :=
  [15775252480, 15788796928, 15802351616, 15815918592, 15829497856, 15843087360, 15856690176, 15870303232, 15883928576, 15897566208, 15911214080, 15924875264, 15938546688, 15952231424, 15965926400, 15979633664, 15993353216, 16007084032, 16020827136, 16034581504, 16048348160, 16062126080, 16075916288, 16089717760, 16103531520, 16117357568, 16131194880, 16145043456, 16158905344, 16172778496, 16186662912, 16200559616, 16214468608, 16228389888, 16242322432, 16256267264, 16270223360, 16284192768, 16298173440, 16312165376, 16326170624, 16340187136, 16354215936, 16368257024, 16382309376, 16396374016, 16410450944, 16424540160, 16438641664, 16452754432, 16466880512, 16481017856, 16495167488, 16509329408, 16523502592, 16537689088, 16551887872, 16566097920, 16580320256, 16594555904, 16608802816, 16623062016, 16637333504, 16651617280, 16665913344, 16680221696, 16694542336, 16708875264, 16723220480, 16737577984, 16751947776, 16766330880, 16780725248, 16795131904, 16809550848, 16823983104, 16838426624, 16852883456, 16867352576, 16881833984, 16896327680, 16910833664, 16925351936, 16939883520, 16954427392, 16968983552, 16983552000, 16998132736, 17012726784, 17027332096, 17041951744, 17056582656, 17071225856, 17085882368, 17100551168, 17115233280, 17129927680, 17144634368, 17159353344, 17174085632]

/-- rows 8700 to 8799 of `kcorrect-default-v4.fits` -/
def defaultUnits87 : List Nat :=
  [17188829184, 17203587072, 17218357248, 17233139712, 17247934464, 17262743552, 17277564928, 17292398592, 17307244544, 17322102784, 17336975360, 17351860224, 17366757376, 17381666816, 17396588544, 17411524608, 17426472960, 17441435648, 17456408576, 17471395840, 17486395392, 17501409280, 17516435456, 17531473920, 17546524672, 17561589760, 17576667136, 17591756800, 17606860800, 17621977088, 17637105664, 17652248576, 17667403776, 17682571264, 17697753088, 17712947200, 17728153600, 17743374336, 17758607360, 17773854720, 17789114368, 17804386304, 17819672576, 17834971136, 17850284032, 17865609216, 17880946688, 17896298496, 17911662592, 17927041024, 17942431744, 17957836800, 17973254144, 17988683776, 18004127744, 18019586048, 18035056640, 18050539520, 18066036736, 18081548288, 18097072128, 18112608256, 18128158720, 18143723520, 18159300608, 18174889984, 18190493696, 18206111744, 18221742080, 18237386752, 18253043712, 18268715008, 18284400640, 18300098560, 18315808768, 18331533312, 18347272192, 18363023360, 18378788864, 18394568704, 18410360832, 18426167296, 18441986048, 18457819136, 18473666560, 18489526272, 18505400320, 18521288704, 18537189376, 18553104384, 18569033728, 18584975360, 18600931328, 18616901632, 18632884224, 18648881152, 18664892416, 18680918016, 18696955904, 18713008128]

/-- rows 8800 to 8899 of `kcorrect-default-v4.fits` -/
def defaultUnits88 : List Nat :=
  [18729074688, 18745153536, 18761246720, 18777354240, 18793476096, 18809610240, 18825758720, 18841921536, 18858098688, 18874288128, 18890493952, 18906712064, 18922944512, 18939189248, 18955450368, 18971723776, 18988011520, 19004313600, 19020630016, 19036960768, 19053303808, 19069661184, 19086034944, 19102420992, 19118821376, 19135234048, 19151663104, 19168106496, 19184562176, 19201032192, 19217518592, 19234017280, 19250530304, 19267057664, 19283599360, 19300155392, 19316725760, 19333308416, 19349907456, 19366520832, 19383146496, 19399788544, 19416444928, 19433113600, 19449798656, 19466496000, 19483209728, 19499935744, 19516678144, 19533432832, 19550203904, 19566989312, 19583787008, 19600601088, 19617429504, 19634272256, 19651129344, 19668000768, 19684886528, 19701786624, 19718701056, 19735629824, 19752572928, 19769532416, 19786504192, 19803492352, 19820494848, 19837511680, 19854542848, 19871588352, 19888650240, 19905724416, 19922814976, 19939919872, 19957039104, 19974172672, 19991320576, 20008484864, 20025661440, 20042854400, 20060063744, 20077285376, 20094523392, 20111773696, 20129040384, 20146323456, 20163618816, 20180930560, 20198256640, 20215597056, 20232953856, 20250324992, 20267710464, 20285110272, 20302526464, 20319956992, 20337401856, 20354863104, 20372338688, 20389828608]

/-- rows 8900 to 8999 of `kcorrect-default-v4.fits` -/
def defaultUnits89 : List Nat :=
  [20407334912, 20424855552, 20442390528, 20459941888, 20477507584, 20495087616, 20512684032, 20530294784, 20547921920, 20565561344, 20583219200, 20600889344, 20618575872, 20636278784, 20653996032, 20671727616, 20689475584, 20707237888, 20725016576, 20742809600, 20760619008, 20778442752, 20796280832, 20814135296, 20832006144, 20849891328, 20867790848, 20885706752, 20903639040, 20921585664, 20939546624, 20957523968, 20975517696, 20993525760, 21011550208, 21029588992, 21047644160, 21065713664, 21083799552, 21101901824, 21120018432, 21138149376, 21156298752, 21174462464, 21192640512, 21210834944, 21229045760, 21247272960, 21265514496, 21283770368, 21302044672, 21320333312, 21338636288, 21356957696, 21375293440, 21393645568, 21412012032, 21430394880, 21448794112, 21467209728, 21485639680, 21504086016, 21522546688, 21541025792, 21559519232, 21578029056, 21596555264, 21615095808, 21633654784, 21652228096, 21670815744, 21689421824, 21708042240, 21726681088, 21745334272, 21764003840, 21782687744, 21801390080, 21820106752, 21838839808, 21857589248, 21876355072, 21895137280, 21913935872, 21932748800, 21951580160, 21970425856, 21989287936, 22008166400, 22027061248, 22045972480, 22064900096, 22083844096, 22102804480, 22121781248, 22140772352, 22159781888, 22178805760, 22197848064, 22216906752]

/-- rows 9000 to 9099 of `kcorrect-default-v4.fits` -/
def defaultUnits90 : List Nat :=
  [22235979776, 22255071232, 22274177024, 22293301248, 22312439808, 22331596800, 22350768128, 22369957888, 22389164032, 22408386560, 22427623424, 22446878720, 22466150400, 22485438464, 22504742912, 22524065792, 22543403008, 22562756608, 22582128640, 22601515008, 22620919808, 22640340992, 22659778560, 22679232512, 22698704896, 22718191616, 22737696768, 22757218304, 22776756224, 22796310528, 22815883264, 22835470336, 22855075840, 22874697728, 22894336000, 22913992704, 22933665792, 22953355264, 22973061120, 22992785408, 23012524032, 23032281088, 23052056576, 23071846400, 23091654656, 23111481344, 23131322368, 23151181824, 23171057664, 23190951936, 23210862592, 23230789632, 23250733056, 23270694912, 23290675200, 23310669824, 23330682880, 23350714368, 23370762240, 23390826496, 23410909184, 23431008256, 23451123712, 23471257600, 23491409920, 23511576576, 23531763712, 23551965184, 23572187136, 23592423424, 23612678144, 23632951296, 23653240832, 23673548800, 23693873152, 23714215936, 23734575104, 23754952704, 23775346688, 23795759104, 23816187904, 23836635136, 23857100800, 23877582848, 23898083328, 23918600192, 23939135488, 23959687168, 23980259328, 24000845824, 24021452800, 24042076160, 24062715904, 24083376128, 24104052736, 24124745728, 24145459200, 24166189056, 24186935296, 24207702016]

/-- rows 9100 to 9199 of `kcorrect-default-v4.fits` -/
def defaultUnits91 : List Nat :=
  [24228485120, 24249286656, 24270104576, 24290942976, 24311797760, 24332668928, 24353560576, 24374468608, 24395395072, 24416339968, 24437301248, 24458283008, 24479281152, 24500297728, 24521332736, 24542384128, 24563456000, 24584544256, 24605650944, 24626776064, 24647919616, 24669079552, 24690259968, 24711456768, 24732674048, 24753907712, 24775159808, 24796430336, 24817719296, 24839024640, 24860350464, 24881694720, 24903057408, 24924436480, 24945836032, 24967251968, 24988688384, 25010141184, 25031614464, 25053104128, 25074614272, 25096140800, 25117687808, 25139251200, 25160835072, 25182437376, 25204056064, 25225695232, 25247352832, 25269028864, 25290723328, 25312436224, 25334167552, 25355919360, 25377687552, 25399476224, 25421281280, 25443106816, 25464950784, 25486813184, 25508696064, 25530595328, 25552515072, 25574453248, 25596409856, 25618384896, 25640380416, 25662392320, 25684424704, 25706475520, 25728546816, 25750634496, 25772742656, 25794871296, 25817016320, 25839181824, 25861365760, 25883568128, 25905790976, 25928032256, 25950291968, 25972572160, 25994870784, 26017187840, 26039525376, 26061881344, 26084255744, 26106650624, 26129063936, 26151495680, 26173947904, 26196420608, 26218911744, 26241421312, 26263949312, 26286499840, 26309066752, 26331654144, 26354262016, 26376888320]

/-- rows 9200 to 9299 of `kcorrect-default-v4.fits` -/
def defaultUnits92 : List Nat :=
  [26399533056, 26422198272, 26444881920, 26467586048, 26490310656, 26513053696, 26535815168, 26558597120, 26581399552, 26604220416, 26627061760, 26649921536, 26672801792, 26695702528, 26718621696, 26741559296, 26764519424, 26787497984, 26810494976, 26833514496, 26856550400, 26879608832, 26902685696, 26925783040, 26948900864, 26972037120, 26995193856, 27018369024, 27041566720, 27064782848, 27088019456, 27111274496, 27134552064, 27157848064, 27181162496, 27204499456, 27227854848, 27251232768, 27274629120, 27298043904, 27321481216, 27344936960, 27368415232, 27391911936, 27415429120, 27438966784, 27462522880, 27486101504, 27509698560, 27533318144, 27556956160, 27580614656, 27604293632, 27627993088, 27651713024, 27675453440, 27699214336, 27722993664, 27746795520, 27770617856, 27794460672, 27818321920, 27842205696, 27866109952, 27890032640, 27913977856, 27937943552, 27961929728, 27985936384, 28009963520, 28034011136, 28058079232, 28082167808, 28106276864, 28130408448, 28154558464, 28178731008, 28202924032, 28227137536, 28251371520, 28275625984, 28299902976, 28324198400, 28348516352, 28372854784, 28397213696, 28421593088, 28445995008, 28470417408, 28494860288, 28519323648, 28543809536, 28568315904, 28592842752, 28617390080, 28641959936, 28666550272, 28691161088, 28715794432, 28740448256]

/-- rows 9300 to 9399 of `kcorrect-default-v4.fits` -/
def defaultUnits93 : List Nat :=
  [28765122560, 28789819392, 28814536704, 28839274496, 28864034816, 28888815616, 28913616896, 28938440704, 28963284992, 28988151808, 29013039104, 29037948928, 29062879232, 29087830016, 29112803328, 29137797120, 29162813440, 29187852288, 29212909568, 29237991424, 29263093760, 29288216576, 29313361920, 29338527744, 29363716096, 29388926976, 29414158336, 29439412224, 29464686592, 29489983488, 29515300864, 29540640768, 29566003200, 29591388160, 29616793600, 29642219520, 29667670016, 29693140992, 29718632448, 29744146432, 29769684992, 29795241984, 29820823552, 29846425600, 29872050176, 29897695232, 29923364864, 29949054976, 29974767616, 30000502784, 30026258432, 30052036608, 30077839360, 30103662592, 30129506304, 30155374592, 30181263360, 30207176704, 30233110528, 30259066880, 30285045760, 30311045120, 30337069056, 30363115520, 30389182464, 30415273984, 30441385984, 30467520512, 30493679616, 30519859200, 30546061312, 30572285952, 30598533120, 30624804864, 30651097088, 30677411840, 30703749120, 30730110976, 30756493312, 30782898176, 30809327616, 30835779584, 30862252032, 30888749056, 30915268608, 30941810688, 30968375296, 30994962432, 31021574144, 31048206336, 31074863104, 31101542400, 31128244224, 31154968576, 31181715456, 31208486912, 31235280896, 31262097408, 31288938496, 31315800064]

/-- rows 9400 to 9499 of `kcorrect-default-v4.fits` -/
def defaultUnits94 : List Nat :=
  [31342686208, 31369594880, 31396528128, 31423481856, 31450460160, 31477463040, 31504486400, 31531534336, 31558606848, 31585699840, 31612817408, 31639959552, 31667124224, 31694311424, 31721521152, 31748755456, 31776014336, 31803295744, 31830599680, 31857926144, 31885279232, 31912652800, 31940050944, 31967473664, 31994918912, 32022388736, 32049881088, 32077395968, 32104935424, 32132499456, 32160086016, 32187697152, 32215332864, 32242991104, 32270671872, 32298377216, 32326107136, 32353861632, 32381638656, 32409438208, 32437264384, 32465113088, 32492984320, 32520882176, 32548802560, 32576747520, 32604715008, 32632707072, 32660723712, 32688764928, 32716828672, 32744919040, 32773031936, 32801167360, 32829329408, 32857513984, 32885723136, 32913956864, 32942215168, 32970498048, 32998805504, 33027135488, 33055490048, 33083869184, 33112274944, 33140703232, 33169154048, 33197631488, 33226133504, 33254660096, 33283209216, 33311784960, 33340385280, 33369008128, 33397657600, 33426331648, 33455028224, 33483751424, 33512499200, 33541269504, 33570066432, 33598887936, 33627734016, 33656604672, 33685499904, 33714421760, 33743366144, 33772337152, 33801330688, 33830350848, 33859395584, 33888464896, 33917560832, 33946679296, 33975824384, 34004994048, 34034188288, 34063409152, 34092652544, 34121922560]

/-- rows 9500 to 9599 of `kcorrect-default-v4.fits` -/
def defaultUnits95 : List Nat :=
  [34151219200, 34180538368, 34209884160, 34239254528, 34268649472, 34298071040, 34327517184, 34356989952, 34386485248, 34416009216, 34445557760, 34475130880, 34504728576, 34534350848, 34564001792, 34593673216, 34623373312, 34653102080, 34682851328, 34712629248, 34742431744, 34772258816, 34802110464, 34831990784, 34861895680, 34891825152, 34921783296, 34951761920, 34981773312, 35011805184, 35041865728, 35071946752, 35102060544, 35132194816, 35162357760, 35192545280, 35222761472, 35253002240, 35283267584, 35313561600, 35343876096, 35374223360, 35404591104, 35434987520, 35465412608, 35495858176, 35526332416, 35556835328, 35587362816, 35617914880, 35648495616, 35679100928, 35709730816, 35740389376, 35771076608, 35801784320, 35832524800, 35863285760, 35894075392, 35924893696, 35955736576, 35986608128, 36017504256, 36048424960, 36079374336, 36110348288, 36141350912, 36172382208, 36203438080, 36234518528, 36265627648, 36296761344, 36327923712, 36359114752, 36390330368, 36421570560, 36452843520, 36484136960, 36515463168, 36546809856, 36578189312, 36609593344, 36641021952, 36672479232, 36703965184, 36735475712, 36767014912, 36798582784, 36830175232, 36861796352, 36893442048, 36925116416, 36956819456, 36988547072, 37020303360, 37052088320, 37083897856, 37115736064, 37147602944, 37179494400]

/-- rows 9600 to 9699 of `kcorrect-default-v4.fits` -/
def defaultUnits96 : List Nat :=
  [37211414528, 37243363328, 37275336704, 37307338752, 37339369472, 37371428864, 37403512832, 37435625472, 37467766784, 37499932672, 37532127232, 37564350464, 37596602368, 37628878848, 37661184000, 37693517824, 37725880320, 37758271488, 37790687232, 37823131648, 37855604736, 37888106496, 37920632832, 37953191936, 37985775616, 38018387968, 38051028992, 38083694592, 38116392960, 38149115904, 38181867520, 38214647808, 38247456768, 38280294400, 38313160704, 38346055680, 38378975232, 38411927552, 38444904448, 38477910016, 38510944256, 38544007168, 38577098752, 38610219008, 38643367936, 38676545536, 38709751808, 38742986752, 38776246272, 38809538560, 38842859520, 38876205056, 38909583360, 38942990336, 38976421888, 39009886208, 39043379200, 39076896768, 39110447104, 39144026112, 39177629696, 39211266048, 39244931072, 39278624768, 39312347136, 39346098176, 39379877888, 39413690368, 39447527424, 39481393152, 39515291648, 39549214720, 39583170560, 39617155072, 39651168256, 39685210112, 39719280640, 39753379840, 39787511808, 39821672448, 39855857664, 39890075648, 39924326400, 39958601728, 39992905728, 40027242496, 40061607936, 40096002048, 40130424832, 40164880384, 40199364608, 40233877504, 40268419072, 40302989312, 40337592320, 40372224000, 40406884352, 40441577472, 40476295168, 40511045632]

/-- rows 9700 to 9799 of `kcorrect-default-v4.fits` -/
def defaultUnits97 : List Nat :=
  [40545828864, 40580636672, 40615477248, 40650346496, 40685248512, 40720179200, 40755138560, 40790126592, 40825147392, 40860196864, 40895279104, 40930390016, 40965529600, 41000701952, 41035898880, 41071132672, 41106395136, 41141686272, 41177006080, 41212358656, 41247739904, 41283153920, 41318596608, 41354072064, 41389576192, 41425108992, 41460674560, 41496268800, 41531895808, 41567555584, 41603239936, 41638961152, 41674706944, 41710489600, 41746296832, 41782140928, 41818009600, 41853915136, 41889845248, 41925812224, 41961803776, 41997832192, 42033889280, 42069975040, 42106093568, 42142244864, 42178424832, 42214637568, 42250878976, 42287153152, 42323460096, 42359795712, 42396164096, 42432561152, 42468995072, 42505453568, 42541948928, 42578472960, 42615025664, 42651615232, 42688233472, 42724880384, 42761564160, 42798276608, 42835017728, 42871795712, 42908602368, 42945441792, 42982309888, 43019214848, 43056148480, 43093110784, 43130109952, 43167137792, 43204198400, 43241291776, 43278417920, 43315572736, 43352760320, 43389980672, 43427233792, 43464515584, 43501834240, 43539181568, 43576561664, 43613974528, 43651420160, 43688894464, 43726405632, 43763945472, 43801518080, 43839123456, 43876761600, 43914432512, 43952132096, 43989868544, 44027633664, 44065435648, 44103266304, 44141129728]

/-- rows 9800 to 9899 of `kcorrect-default-v4.fits` -/
def defaultUnits98 : List Nat :=
  [44179030016, 44216958976, 44254920704, 44292915200, 44330942464, 44369002496, 44407095296, 44445220864, 44483379200, 44521570304, 44559794176, 44598046720, 44636336128, 44674658304, 44713013248, 44751405056, 44789825536, 44828278784, 44866764800, 44905283584, 44943839232, 44982423552, 45021044736, 45059694592, 45098381312, 45137100800, 45175853056, 45214638080, 45253455872, 45292306432, 45331193856, 45370114048, 45409062912, 45448048640, 45487067136, 45526122496, 45565206528, 45604327424, 45643481088, 45682667520, 45721886720, 45761142784, 45800431616, 45839753216, 45879107584, 45918494720, 45957918720, 45997375488, 46036865024, 46076391424, 46115950592, 46155542528, 46195167232, 46234828800, 46274523136, 46314250240, 46354014208, 46393810944, 46433640448, 46473506816, 46513405952, 46553341952, 46593306624, 46633312256, 46673346560, 46713417728, 46753525760, 46793662464, 46833836032, 46874046464, 46914289664, 46954569728, 46994878464, 47035228160, 47075610624, 47116025856, 47156477952, 47196962816, 47237484544, 47278039040, 47318630400, 47359254528, 47399911424, 47440609280, 47481335808, 47522103296, 47562903552, 47603736576, 47644606464, 47685513216, 47726452736, 47767425024, 47808438272, 47849484288, 47890563072, 47931678720, 47972831232, 48014016512, 48055238656, 48096497664]

/-- rows 9900 to 9999 of `kcorrect-default-v4.fits` -/
def defaultUnits99 : List Nat :=
  [48137789440, 48179118080, 48220483584, 48261881856, 48303316992, 48344784896, 48386293760, 48427835392, 48469409792, 48511025152, 48552673280, 48594358272, 48636076032, 48677834752, 48719626240, 48761454592, 48803315712, 48845217792, 48887152640, 48929124352, 48971132928, 49013174272, 49055256576, 49097371648, 49139523584, 49181712384, 49223938048, 49266196480, 49308495872, 49350828032, 49393197056, 49435602944, 49478045696, 49520525312, 49563041792, 49605591040, 49648181248, 49690804224, 49733468160, 49776164864, 49818902528, 49861672960, 49904480256, 49947324416, 49990205440, 50033127424, 50076082176, 50119073792, 50162102272, 50205167616, 50248273920, 50291412992, 50334588928, 50377805824, 50421055488, 50464346112, 50507669504, 50551033856, 50594435072, 50637869056, 50681344000, 50724855808, 50768408576, 50811994112, 50855616512, 50899279872, 50942980096, 50986717184, 51030491136, 51074301952, 51118149632, 51162038272, 51205963776, 51249926144, 51293925376, 51337961472, 51382038528, 51426152448, 51470303232, 51514494976, 51558719488, 51602984960, 51647291392, 51691630592, 51736010752, 51780427776, 51824881664, 51869376512, 51913908224, 51958480896, 52003086336, 52047732736, 52092420096, 52137144320, 52181905408, 52226707456, 52271542272, 52316422144, 52361338880, 52406292480]

/-- data/templates/kcorrect-default-v4.fits, column `wave`, in pieces of 100 rows -/
def defaultUnits : List (List Nat) :=
  [defaultUnits0, defaultUnits1, defaultUnits2, defaultUnits3, defaultUnits4, defaultUnits5, defaultUnits6, defaultUnits7, defaultUnits8, defaultUnits9, defaultUnits10, defaultUnits11, defaultUnits12, defaultUnits13, defaultUnits14, defaultUnits15, defaultUnits16, defaultUnits17, defaultUnits18, defaultUnits19, defaultUnits20, defaultUnits21, defaultUnits22, defaultUnits23, defaultUnits24, defaultUnits25, defaultUnits26, defaultUnits27, defaultUnits28, defaultUnits29, defaultUnits30, defaultUnits31, defaultUnits32, defaultUnits33, defaultUnits34, defaultUnits35, defaultUnits36, defaultUnits37, defaultUnits38, defaultUnits39, defaultUnits40, defaultUnits41, defaultUnits42, defaultUnits43, defaultUnits44, defaultUnits45, defaultUnits46, defaultUnits47, defaultUnits48, defaultUnits49, defaultUnits50, defaultUnits51, defaultUnits52, defaultUnits53, defaultUnits54, defaultUnits55, defaultUnits56, defaultUnits57, defaultUnits58, defaultUnits59, defaultUnits60, defaultUnits61, defaultUnits62, defaultUnits63, defaultUnits64, defaultUnits65, defaultUnits66, defaultUnits67, defaultUnits68, defaultUnits69, defaultUnits70, defaultUnits71, defaultUnits72, defaultUnits73, defaultUnits74, defaultUnits75, defaultUnits76, defaultUnits77, defaultUnits78, defaultUnits79, defaultUnits80, defaultUnits81, defaultUnits82, defaultUnits83, defaultUnits84, defaultUnits85, defaultUnits86, defaultUnits87, defaultUnits88, defaultUnits89, defaultUnits90, defaultUnits91, defaultUnits92, defaultUnits93, defaultUnits94, defaultUnits95, defaultUnits96, defaultUnits97, defaultUnits98, defaultUnits99]

/-- rows 0 to 99 of `kcorrect-lrg1-v4.fits` -/
def lrg1Units0 : List Nat :=
  [9834622, 9843064, 9851513, 9859970, 9868440, 9876911, 9885389, 9893875, 9902368, 9910874, 9919382, 9927897, 9936419, 9944949, 9953491, 9962036, 9970587, 9979146, 9987713, 9996292, 10004873, 10013461, 10022057, 10030666, 10039276, 10047894, 10056520, 10065152, 10073798, 10082446, 10091101, 10099763, 10108438, 10117116, 10125800, 10134493, 10143192, 10151905, 10160620, 10169342, 10178071, 10186808, 10195559, 10204311, 10213070, 10221838, 10230618, 10239400, 10248190, 10256987, 10265792, 10274610, 10283430, 10292257, 10301092, 10309941, 10318791, 10327649, 10336514, 10345388, 10354274, 10363162, 10372058, 10380962, 10389879, 10398798, 10407724, 10416658, 10425600, 10434556, 10443513, 10452478, 10461451, 10470431, 10479425, 10488420, 10497424, 10506435, 10515454, 10524487, 10533521, 10542563, 10551613, 10560677, 10569742, 10578816, 10587897, 10596986, 10606088, 10615193, 10624305, 10633425, 10642559, 10651695, 10660838, 10669990, 10679149, 10688322, 10697497, 10706680]

/-- rows 100 to 199 of `kcorrect-lrg1-v4.fits` -/
def lrg1Units1 : List Nat :=
  [10715871, 10725076, 10734283, 10743497, 10752720, 10761950, 10771194, 10780440, 10789695, 10798957, 10808227, 10817511, 10826797, 10836091, 10845393, 10854708, 10864026, 10873352, 10882686, 10892028, 10901384, 10910742, 10920108, 10929482, 10938864, 10948261, 10957659, 10967065, 10976479, 10985908, 10995338, 11004777, 11014224, 11023679, 11033148, 11042619, 11052098, 11061585, 11071081, 11080591, 11090103, 11099623, 11109151, 11118693, 11128238, 11137790, 11147351, 11156921, 11166504, 11176090, 11185683, 11195285, 11204902, 11214520, 11224147, 11233782, 11243426, 11253083, 11262743, 11272411, 11282088, 11291779, 11301472, 11311174, 11320883, 11330601, 11340334, 11350069, 11359812, 11369564, 11379323, 11389098, 11398875, 11408660, 11418453, 11428255, 11438071, 11447890, 11457717, 11467553, 11477403, 11487256, 11497117, 11506986, 11516870, 11526756, 11536651, 11546555, 11556466, 11566393, 11576322, 11586259, 11596205, 11606160, 11616129, 11626101, 11636081, 11646069, 11656073, 11666079]

/-- rows 200 to 299 of `kcorrect-lrg1-v4.fits` -/
def lrg1Units2 : List Nat :=
  [11676093, 11686116, 11696148, 11706195, 11716243, 11726301, 11736367, 11746442, 11756532, 11766624, 11776724, 11786834, 11796952, 11807085, 11817221, 11827365, 11837518, 11847686, 11857856, 11868035, 11878223, 11888426, 11898631, 11908845, 11919068, 11929300, 11939547, 11949796, 11960054, 11970321, 11980596, 11990887, 12001181, 12011483, 12021794, 12032120, 12042449, 12052786, 12063132, 12073488, 12083859, 12094232, 12104614, 12115004, 12125404, 12135820, 12146237, 12156664, 12167099, 12177544, 12188004, 12198467, 12208938, 12219418, 12229915, 12240413, 12250920, 12261437, 12271969, 12282504, 12293047, 12303600, 12314162, 12324739, 12335319, 12345908, 12356506, 12367113, 12377736, 12388361, 12398996, 12409639, 12420292, 12430961, 12441632, 12452312, 12463001, 12473707, 12484414, 12495131, 12505857, 12516593, 12527344, 12538098, 12548861, 12559633, 12570421, 12581212, 12592012, 12602821, 12613640, 12624475, 12635312, 12646158, 12657014, 12667879, 12678760, 12689644, 12700537, 12711440]

/-- rows 300 to 399 of `kcorrect-lrg1-v4.fits` -/
def lrg1Units3 : List Nat :=
  [12722358, 12733280, 12744210, 12755150, 12766099, 12777065, 12788033, 12799011, 12809998, 12821001, 12832007, 12843022, 12854047, 12865081, 12876132, 12887185, 12898248, 12909320, 12920401, 12931500, 12942600, 12953711, 12964830, 12975967, 12987106, 12998254, 13009412, 13020580, 13031764, 13042951, 13054147, 13065353, 13076569, 13087801, 13099036, 13110280, 13121535, 13132806, 13144079, 13155362, 13166655, 13177958, 13189277, 13200599, 13211931, 13223272, 13234623, 13245992, 13257362, 13268743, 13280133, 13291540, 13302950, 13314369, 13325799, 13337238, 13348694, 13360153, 13371622, 13383100, 13394596, 13406094, 13417602, 13429120, 13440648, 13452193, 13463741, 13475299, 13486866, 13498443, 13510038, 13521636, 13533243, 13544860, 13556495, 13568132, 13579779, 13591436, 13603104, 13614788, 13626475, 13638173, 13649880, 13661597, 13673332, 13685070, 13696817, 13708575, 13720350, 13732128, 13743916, 13755714, 13767522, 13779348, 13791177, 13803016, 13814864, 13826731, 13838600, 13850479]

/-- rows 400 to 499 of `kcorrect-lrg1-v4.fits` -/
def lrg1Units4 : List Nat :=
  [13862369, 13874269, 13886186, 13898107, 13910037, 13921978, 13933936, 13945898, 13957869, 13969851, 13981843, 13993853, 14005865, 14017888, 14029922, 14041965, 14054027, 14066091, 14078166, 14090251, 14102346, 14114460, 14126576, 14138703, 14150840, 14162995, 14175153, 14187321, 14199500, 14211689, 14223896, 14236106, 14248327, 14260558, 14272807, 14285059, 14297322, 14309595, 14321879, 14334181, 14346486, 14358801, 14371127, 14383471, 14395819, 14408176, 14420545, 14432923, 14445321, 14457721, 14470132, 14482553, 14494986, 14507436, 14519890, 14532354, 14544829, 14557323, 14569819, 14582326, 14594844, 14607372, 14619920, 14632470, 14645031, 14657602, 14670193, 14682786, 14695390, 14708005, 14720630, 14733275, 14745922, 14758581, 14771250, 14783930, 14796629, 14809330, 14822043, 14834767, 14847501, 14860255, 14873011, 14885778, 14898557, 14911354, 14924154, 14936966, 14949788, 14962621, 14975474, 14988329, 15001195, 15014073, 15026969, 15039869, 15052779, 15065701, 15078634, 15091586]

/-- rows 500 to 599 of `kcorrect-lrg1-v4.fits` -/
def lrg1Units5 : List Nat :=
  [15104541, 15117507, 15130484, 15143481, 15156480, 15169491, 15182513, 15195546, 15208598, 15221654, 15234720, 15247798, 15260887, 15273996, 15287107, 15300230, 15313364, 15326518, 15339675, 15352843, 15366022, 15379212, 15392423, 15405636, 15418860, 15432096, 15445352, 15458611, 15471881, 15485162, 15498455, 15511768, 15525083, 15538410, 15551749, 15565099, 15578469, 15591842, 15605226, 15618622, 15632038, 15645457, 15658887, 15672329, 15685783, 15699256, 15712733, 15726221, 15739721, 15753232, 15766764, 15780298, 15793844, 15807402, 15820972, 15834561, 15848154, 15861759, 15875375, 15889011, 15902651, 15916302, 15929965, 15943648, 15957335, 15971033, 15984743, 15998464, 16012206, 16025952, 16039709, 16053478, 16067258, 16081060, 16094864, 16108680, 16122508, 16136357, 16150209, 16164072, 16177948, 16191836, 16205744, 16219655, 16233579, 16247514, 16261461, 16275429, 16289400, 16303384, 16317379, 16331395, 16345414, 16359446, 16373489, 16387544, 16401621, 16415700, 16429792, 16443895]

/-- rows 600 to 699 of `kcorrect-lrg1-v4.fits` -/
def lrg1Units6 : List Nat :=
  [16458020, 16472148, 16486288, 16500441, 16514605, 16528790, 16542979, 16557180, 16571393, 16585618, 16599865, 16614115, 16628377, 16642651, 16656946, 16671245, 16685556, 16699879, 16714215, 16728572, 16742932, 16757304, 16771689, 16786096, 16800506, 16814928, 16829362, 16843808, 16858276, 16872748, 16887232, 16901728, 16916246, 16930768, 16945302, 16959848, 16974406, 16988978, 17003570, 17018168, 17032776, 17047398, 17062040, 17076686, 17091346, 17106018, 17120702, 17135408, 17150118, 17164840, 17179574, 17194322, 17209090, 17223864, 17238648, 17253446, 17268268, 17283090, 17297926, 17312776, 17327638, 17342522, 17357408, 17372308, 17387222, 17402156, 17417094, 17432046, 17447010, 17461996, 17476986, 17491988, 17507004, 17522032, 17537084, 17552138, 17567206, 17582286, 17597378, 17612494, 17627612, 17642744, 17657890, 17673048, 17688228, 17703412, 17718610, 17733820, 17749052, 17764288, 17779538, 17794800, 17810076, 17825374, 17840676, 17855990, 17871318, 17886660, 17902024, 17917392]

/-- rows 700 to 799 of `kcorrect-lrg1-v4.fits` -/
def lrg1Units7 : List Nat :=
  [17932772, 17948166, 17963582, 17979004, 17994436, 18009884, 18025344, 18040826, 18056314, 18071814, 18087326, 18102854, 18118404, 18133956, 18149524, 18165112, 18180706, 18196314, 18211934, 18227566, 18243214, 18258884, 18274558, 18290246, 18305946, 18321670, 18337398, 18353140, 18368894, 18384662, 18400454, 18416250, 18432058, 18447880, 18463716, 18479576, 18495440, 18511316, 18527208, 18543122, 18559040, 18574972, 18590916, 18606876, 18622858, 18638844, 18654844, 18670858, 18686896, 18702938, 18718992, 18735060, 18751144, 18767250, 18783360, 18799484, 18815622, 18831784, 18847950, 18864130, 18880322, 18896530, 18912762, 18928996, 18945246, 18961510, 18977786, 18994088, 19010392, 19026712, 19043044, 19059392, 19075762, 19092138, 19108526, 19124930, 19141358, 19157790, 19174234, 19190694, 19207178, 19223666, 19240168, 19256684, 19273216, 19289770, 19306330, 19322902, 19339490, 19356102, 19372718, 19389348, 19405992, 19422650, 19439334, 19456020, 19472722, 19489438, 19506168, 19522924]

/-- rows 800 to 899 of `kcorrect-lrg1-v4.fits` -/
def lrg1Units8 : List Nat :=
  [19539682, 19556456, 19573244, 19590046, 19606872, 19623704, 19640548, 19657408, 19674294, 19691182, 19708086, 19725004, 19741936, 19758894, 19775856, 19792832, 19809822, 19826828, 19843858, 19860892, 19877942, 19895006, 19912094, 19929188, 19946296, 19963418, 19980554, 19997718, 20014884, 20032066, 20049262, 20066482, 20083708, 20100948, 20118204, 20135474, 20152770, 20170070, 20187384, 20204712, 20222058, 20239428, 20256802, 20274190, 20291594, 20309012, 20326458, 20343906, 20361370, 20378848, 20396354, 20413862, 20431386, 20448924, 20466478, 20484058, 20501642, 20519242, 20536856, 20554496, 20572140, 20589800, 20607476, 20625166, 20642882, 20660602, 20678338, 20696088, 20713866, 20731646, 20749444, 20767254, 20785082, 20802936, 20820794, 20838666, 20856554, 20874458, 20892390, 20910324, 20928274, 20946240, 20964232, 20982228, 21000240, 21018266, 21036308, 21054378, 21072452, 21090540, 21108646, 21126778, 21144912, 21163064, 21181232, 21199414, 21217624, 21235836, 21254066, 21272312]

/-- rows 900 to 999 of `kcorrect-lrg1-v4.fits` -/
def lrg1Units9 : List Nat :=
  [21290584, 21308860, 21327152, 21345460, 21363782, 21382134, 21400488, 21418860, 21437246, 21455648, 21474078, 21492512, 21510962, 21529426, 21547908, 21566418, 21584930, 21603460, 21622004, 21640576, 21659154, 21677746, 21696354, 21714980, 21733632, 21752288, 21770962, 21789650, 21808366, 21827088, 21845824, 21864578, 21883346, 21902144, 21920944, 21939762, 21958596, 21977458, 21996324, 22015206, 22034104, 22053018, 22071962, 22090908, 22109872, 22128852, 22147848, 22166872, 22185900, 22204946, 22224006, 22243084, 22262190, 22281300, 22300428, 22319570, 22338742, 22357918, 22377112, 22396320, 22415558, 22434800, 22454058, 22473334, 22492626, 22511946, 22531270, 22550612, 22569970, 22589344, 22608748, 22628156, 22647580, 22667022, 22686492, 22705966, 22725458, 22744966, 22764490, 22784044, 22803604, 22823178, 22842770, 22862380, 22882018, 22901660, 22921318, 22940996, 22960688, 22980410, 23000138, 23019882, 23039642, 23059432, 23079228, 23099040, 23118868, 23138726, 23158590, 23178468]

/-- rows 1000 to 1099 of `kcorrect-lrg1-v4.fits` -/
def lrg1Units10 : List Nat :=
  [23198366, 23218280, 23238224, 23258172, 23278138, 23298120, 23318120, 23338150, 23358184, 23378234, 23398302, 23418388, 23438504, 23458624, 23478762, 23498916, 23519102, 23539290, 23559498, 23579722, 23599962, 23620234, 23640510, 23660804, 23681114, 23701456, 23721802, 23742166, 23762546, 23782944, 23803374, 23823806, 23844258, 23864726, 23885212, 23905728, 23926250, 23946788, 23967346, 23987920, 24008524, 24029134, 24049762, 24070406, 24091082, 24111762, 24132460, 24153176, 24173910, 24194674, 24215444, 24236230, 24257036, 24277872, 24298712, 24319570, 24340448, 24361342, 24382268, 24403198, 24424146, 24445112, 24466110, 24487112, 24508132, 24529170, 24550228, 24571316, 24592408, 24613518, 24634648, 24655794, 24676972, 24698156, 24719358, 24740578, 24761828, 24783084, 24804360, 24825652, 24846962, 24868306, 24889652, 24911018, 24932402, 24953806, 24975240, 24996680, 25018138, 25039614, 25061122, 25082634, 25104166, 25125716, 25147284, 25168886, 25190490, 25212116, 25233758, 25255432]

/-- rows 1100 to 1199 of `kcorrect-lrg1-v4.fits` -/
def lrg1Units11 : List Nat :=
  [25277112, 25298812, 25320528, 25342264, 25364032, 25385806, 25407596, 25429408, 25451250, 25473098, 25494966, 25516850, 25538754, 25560692, 25582634, 25604594, 25626574, 25648572, 25670604, 25692640, 25714696, 25736770, 25758876, 25780988, 25803120, 25825270, 25847438, 25869640, 25891848, 25914074, 25936320, 25958584, 25980882, 26003184, 26025506, 26047846, 26070220, 26092600, 26114998, 26137416, 26159854, 26182324, 26204800, 26227294, 26249808, 26272342, 26294908, 26317480, 26340072, 26362684, 26385328, 26407978, 26430646, 26453336, 26476044, 26498786, 26521534, 26544300, 26567086, 26589906, 26612732, 26635576, 26658442, 26681326, 26704244, 26727168, 26750110, 26773074, 26796070, 26819074, 26842096, 26865138, 26888198, 26911296, 26934396, 26957518, 26980658, 27003820, 27027014, 27050216, 27073436, 27096676, 27119936, 27143232, 27166532, 27189852, 27213194, 27236568, 27259948, 27283350, 27306770, 27330210, 27353686, 27377168, 27400668, 27424190, 27447746, 27471308, 27494890, 27518492]

/-- rows 1200 to 1299 of `kcorrect-lrg1-v4.fits` -/
def lrg1Units12 : List Nat :=
  [27542116, 27565774, 27589436, 27613120, 27636824, 27660562, 27684308, 27708072, 27731858, 27755662, 27779504, 27803350, 27827218, 27851106, 27875014, 27898958, 27922906, 27946876, 27970866, 27994892, 28018924, 28042976, 28067048, 28091142, 28115272, 28139406, 28163562, 28187738, 28211936, 28236168, 28260406, 28284666, 28308946, 28333264, 28357584, 28381928, 28406292, 28430676, 28455098, 28479524, 28503972, 28528440, 28552930, 28577456, 28601986, 28626540, 28651112, 28675724, 28700340, 28724976, 28749634, 28774314, 28799030, 28823752, 28848494, 28873260, 28898044, 28922868, 28947696, 28972544, 28997416, 29022324, 29047236, 29072172, 29097128, 29122106, 29147120, 29172140, 29197182, 29222246, 29247348, 29272454, 29297582, 29322732, 29347904, 29373112, 29398326, 29423562, 29448820, 29474100, 29499418, 29524740, 29550086, 29575452, 29600856, 29626266, 29651698, 29677152, 29702644, 29728142, 29753660, 29779202, 29804764, 29830350, 29855974, 29881602, 29907254, 29932926, 29958638, 29984356]

/-- rows 1300 to 1399 of `kcorrect-lrg1-v4.fits` -/
def lrg1Units13 : List Nat :=
  [30010094, 30035856, 30061656, 30087462, 30113290, 30139140, 30165012, 30190922, 30216838, 30242778, 30268738, 30294722, 30320744, 30346772, 30372822, 30398896, 30425008, 30451124, 30477264, 30503426, 30529612, 30555836, 30582066, 30608318, 30634592, 30660890, 30687228, 30713570, 30739934, 30766322, 30792750, 30819184, 30845640, 30872118, 30898620, 30925160, 30951708, 30978276, 31004870, 31031502, 31058140, 31084800, 31111484, 31138192, 31164938, 31191690, 31218466, 31245266, 31272086, 31298948, 31325816, 31352708, 31379620, 31406576, 31433536, 31460518, 31487524, 31514554, 31541624, 31568700, 31595800, 31622922, 31650068, 31677254, 31704448, 31731664, 31758902, 31786182, 31813468, 31840778, 31868110, 31895466, 31922864, 31950268, 31977694, 32005144, 32032636, 32060134, 32087654, 32115200, 32142768, 32170378, 32197994, 32225634, 32253296, 32280984, 32308712, 32336446, 32364204, 32391986, 32419810, 32447640, 32475494, 32503372, 32531274, 32559218, 32587166, 32615140, 32643138, 32671160]

/-- rows 1400 to 1499 of `kcorrect-lrg1-v4.fits` -/
def lrg1Units14 : List Nat :=
  [32699222, 32727292, 32755386, 32783504, 32811664, 32839830, 32868022, 32896236, 32924474, 32952756, 32981044, 33009356, 33037692, 33066052, 33094454, 33122864, 33151296, 33179754, 33208254, 33236762, 33265292, 33293848, 33322446, 33351052, 33379680, 33408334, 33437014, 33465734, 33494462, 33523214, 33551992, 33580792, 33609640, 33638492, 33667368, 33696268, 33725192, 33754160, 33783136, 33812136, 33841164, 33870232, 33899304, 33928404, 33957532, 33986680, 34015876, 34045076, 34074300, 34103548, 34132844, 34162144, 34191468, 34220820, 34250196, 34279616, 34309044, 34338492, 34367972, 34397492, 34427020, 34456572, 34486152, 34515756, 34545404, 34575056, 34604736, 34634444, 34664172, 34693948, 34723732, 34753540, 34783372, 34813232, 34843136, 34873044, 34902980, 34932940, 34962948, 34992960, 35023000, 35053064, 35083156, 35113292, 35143432, 35173600, 35203796, 35234032, 35264280, 35294552, 35324848, 35355172, 35385540, 35415916, 35446320, 35476748, 35507200, 35537700, 35568208, 35598740]

/-- rows 1500 to 1599 of `kcorrect-lrg1-v4.fits` -/
def lrg1Units15 : List Nat :=
  [35629296, 35659904, 35690512, 35721152, 35751816, 35782504, 35813240, 35843984, 35874752, 35905548, 35936372, 35967240, 35998116, 36029016, 36059944, 36090920, 36121900, 36152908, 36183944, 36215004, 36246112, 36277224, 36308368, 36339536, 36370748, 36401972, 36433220, 36464496, 36495796, 36527144, 36558500, 36589884, 36621292, 36652748, 36684212, 36715704, 36747220, 36778768, 36810360, 36841956, 36873584, 36905236, 36936916, 36968644, 37000380, 37032140, 37063928, 37095748, 37127612, 37159480, 37191380, 37223308, 37255280, 37287260, 37319268, 37351304, 37383368, 37415480, 37447596, 37479744, 37511916, 37544116, 37576368, 37608624, 37640908, 37673220, 37705580, 37737948, 37770344, 37802764, 37835236, 37867716, 37900220, 37932756, 37965320, 37997928, 38030548, 38063196, 38095868, 38128572, 38161324, 38194080, 38226868, 38259684, 38292548, 38325416, 38358316, 38391244, 38424200, 38457204, 38490220, 38523260, 38556328, 38589424, 38622572, 38655728, 38688912, 38722120, 38755384, 38788652]

/-- rows 1600 to 1699 of `kcorrect-lrg1-v4.fits` -/
def lrg1Units16 : List Nat :=
  [38821948, 38855276, 38888648, 38922032, 38955444, 38988884, 39022352, 39055872, 39089400, 39122956, 39156540, 39190152, 39223816, 39257484, 39291184, 39324912, 39358672, 39392480, 39426292, 39460140, 39494012, 39527936, 39561868, 39595828, 39629820, 39663836, 39697908, 39731984, 39766092, 39800228, 39834392, 39868612, 39902836, 39937088, 39971372, 40005704, 40040048, 40074420, 40108820, 40143248, 40177732, 40212220, 40246740, 40281288, 40315888, 40350496, 40385136, 40419804, 40454500, 40489248, 40524004, 40558792, 40593608, 40628476, 40663356, 40698260, 40733196, 40768164, 40803180, 40838208, 40873264, 40908352, 40943468, 40978636, 41013812, 41049020, 41084260, 41119528, 41154848, 41190176, 41225532, 41260924, 41296364, 41331816, 41367296, 41402804, 41438348, 41473940, 41509544, 41545176, 41580840, 41616556, 41652280, 41688036, 41723820, 41759636, 41795508, 41831388, 41867296, 41903236, 41939204, 41975232, 42011264, 42047328, 42083420, 42119568, 42155724, 42191912, 42228132, 42264380]

/-- rows 1700 to 1799 of `kcorrect-lrg1-v4.fits` -/
def lrg1Units17 : List Nat :=
  [42300684, 42336996, 42373340, 42409716, 42446144, 42482580, 42519048, 42555548, 42592076, 42628664, 42665256, 42701880, 42738536, 42775224, 42811968, 42848720, 42885500, 42922316, 42959160, 42996060, 43032968, 43069912, 43106884, 43143912, 43180944, 43218012, 43255112, 43292268, 43329432, 43366624, 43403852, 43441112, 43478428, 43515748, 43553104, 43590492, 43627908, 43665384, 43702868, 43740384, 43777932, 43815536, 43853148, 43890792, 43928468, 43966180, 44003944, 44041720, 44079524, 44117364, 44155260, 44193164, 44231100, 44269068, 44307068, 44345104, 44383196, 44421296, 44459428, 44497592, 44535816, 44574044, 44612308, 44650604, 44688932, 44727320, 44765716, 44804144, 44842604, 44881124, 44919648, 44958208, 44996804, 45035428, 45074112, 45112804, 45151532, 45190292, 45229108, 45267932, 45306792, 45345684, 45384612, 45423596, 45462588, 45501612, 45540672, 45579792, 45618916, 45658076, 45697272, 45736500, 45775784, 45815080, 45854408, 45893772, 45933168, 45972624, 46012088, 46051584]

/-- rows 1800 to 1899 of `kcorrect-lrg1-v4.fits` -/
def lrg1Units18 : List Nat :=
  [46091116, 46130708, 46170308, 46209940, 46249608, 46289312, 46329072, 46368840, 46408644, 46448484, 46488356, 46528288, 46568228, 46608204, 46648216, 46688284, 46728360, 46768476, 46808620, 46848804, 46889044, 46929296, 46969580, 47009900, 47050280, 47090668, 47131092, 47171552, 47212044, 47252600, 47293160, 47333760, 47374392, 47415084, 47455788, 47496524, 47537296, 47578104, 47618972, 47659848, 47700760, 47741708, 47782692, 47823736, 47864788, 47905876, 47947000, 47988184, 48029380, 48070608, 48111872, 48153172, 48194536, 48235908, 48277312, 48318756, 48360236, 48401776, 48443324, 48484908, 48526528, 48568212, 48609904, 48651632, 48693396, 48735196, 48777056, 48818928, 48860836, 48902780, 48944784, 48986800, 49028852, 49070940, 49113064, 49155248, 49197444, 49239676, 49281944, 49324252, 49366620, 49408996, 49451408, 49493860, 49536348, 49578896, 49621456, 49664052, 49706684, 49749384, 49792088, 49834832, 49877612, 49920428, 49963308, 50006196, 50049124, 50092088, 50135112, 50178152]

/-- rows 1900 to 1999 of `kcorrect-lrg1-v4.fits` -/
def lrg1Units19 : List Nat :=
  [50221224, 50264336, 50307484, 50350696, 50393920, 50437180, 50480476, 50523808, 50567208, 50610616, 50654060, 50697544, 50741064, 50784648, 50828244, 50871876, 50915544, 50959280, 51003024, 51046804, 51090624, 51134484, 51178404, 51222340, 51266308, 51310316, 51354392, 51398476, 51442596, 51486756, 51530980, 51575216, 51619492, 51663800, 51708152, 51752540, 51796992, 51841456, 51885960, 51930500, 51975104, 52019720, 52064376, 52109068, 52153832, 52198600, 52243408, 52288256, 52333140, 52378092, 52423056, 52468056, 52513096, 52558176, 52603320, 52648476, 52693672, 52738904, 52784176, 52829516, 52874868, 52920256, 52965684, 53011180, 53056688, 53102232, 53147816, 53193440, 53239132, 53284832, 53330572, 53376352, 53422204, 53468060, 53513960, 53559896, 53605876, 53651920, 53697976, 53744072, 53790208, 53836380, 53882624, 53928880, 53975172, 54021508, 54067908, 54114324, 54160776, 54207268, 54253800, 54300404, 54347016, 54393668, 54440360, 54487124, 54533896, 54580712, 54627564, 54674456]

/-- rows 2000 to 2099 of `kcorrect-lrg1-v4.fits` -/
def lrg1Units20 : List Nat :=
  [54721420, 54768396, 54815408, 54862464, 54909592, 54956724, 55003900, 55051120, 55098376, 55145704, 55193040, 55240420, 55287840, 55335300, 55382832, 55430372, 55477956, 55525580, 55573276, 55620980, 55668728, 55716516, 55764344, 55812244, 55860152, 55908104, 55956096, 56004132, 56052236, 56100352, 56148512, 56196712, 56244984, 56293264, 56341588, 56389952, 56438360, 56486836, 56535328, 56583860, 56632432, 56681044, 56729732, 56778432, 56827172, 56875952, 56924808, 56973672, 57022580, 57071532, 57120520, 57169588, 57218664, 57267780, 57316940, 57366172, 57415420, 57464704, 57514032, 57563404, 57612852, 57662308, 57711804, 57761348, 57810932, 57860588, 57910256, 57959968, 58009724, 58059552, 58109392, 58159272, 58209200, 58259168, 58309208, 58359264, 58409360, 58459500, 58509716, 58559940, 58610212, 58660524, 58710880, 58761308, 58811752, 58862236, 58912764, 58963336, 59013984, 59064644, 59115348, 59166092, 59216916, 59267748, 59318624, 59369544, 59420508, 59471548, 59522600, 59573696]

/-- rows 2100 to 2199 of `kcorrect-lrg1-v4.fits` -/
def lrg1Units21 : List Nat :=
  [59624836, 59676020, 59727280, 59778552, 59829868, 59881224, 59932660, 59984108, 60035600, 60087136, 60138716, 60190376, 60242044, 60293756, 60345516, 60397316, 60449196, 60501088, 60553024, 60605004, 60657060, 60709128, 60761244, 60813404, 60865608, 60917888, 60970180, 61022520, 61074904, 61127364, 61179836, 61232356, 61284920, 61337528, 61390216, 61442912, 61495656, 61548448, 61601280, 61654196, 61707120, 61760092, 61813108, 61866204, 61919308, 61972464, 62025660, 62078904, 62132228, 62185564, 62238948, 62292376, 62345848, 62399400, 62452964, 62506576, 62560232, 62613972, 62667720, 62721516, 62775356, 62829244, 62883212, 62937196, 62991220, 63045292, 63099448, 63153616, 63207828, 63262084, 63316392, 63370780, 63425176, 63479624, 63534116, 63588688, 63643276, 63697908, 63752588, 63807316, 63862124, 63916944, 63971812, 64026728, 64081688, 64136732, 64191788, 64246892, 64302044, 64357276, 64412524, 64467816, 64523156, 64578544, 64634016, 64689500, 64745032, 64800608, 64856236, 64911944]

/-- rows 2200 to 2299 of `kcorrect-lrg1-v4.fits` -/
def lrg1Units22 : List Nat :=
  [64967668, 65023436, 65079256, 65135156, 65191068, 65247032, 65303040, 65359096, 65415240, 65471392, 65527596, 65583844, 65640180, 65696528, 65752924, 65809368, 65865860, 65922436, 65979024, 66035664, 66092348, 66149084, 66205904, 66262736, 66319620, 66376548, 66433564, 66490592, 66547668, 66604796, 66661972, 66719232, 66776504, 66833828, 66891200, 66948620, 67006128, 67063648, 67121216, 67178832, 67236536, 67294256, 67352024, 67409840, 67467704, 67525656, 67583624, 67641640, 67699704, 67757856, 67816024, 67874232, 67932504, 67990816, 68049216, 68107632, 68166096, 68224616, 68283176, 68341832, 68400496, 68459216, 68517984, 68576800, 68635704, 68694624, 68753592, 68812608, 68871720, 68930840, 68990016, 69049232, 69108544, 69167872, 69227248, 69286672, 69346152, 69405680, 69465296, 69524928, 69584608, 69644376, 69704160, 69764000, 69823888, 69883824, 69943816, 70003896, 70063984, 70124128, 70184328, 70244616, 70304912, 70365264, 70425664, 70486160, 70546672, 70607224, 70667840, 70728504]

/-- rows 2300 to 2399 of `kcorrect-lrg1-v4.fits` -/
def lrg1Units23 : List Nat :=
  [70789256, 70850024, 70910840, 70971712, 71032672, 71093648, 71154680, 71215760, 71276896, 71338080, 71399360, 71460648, 71521992, 71583384, 71644872, 71706376, 71767928, 71829536, 71891200, 71952952, 72014720, 72076536, 72138408, 72200336, 72262352, 72324384, 72386464, 72448608, 72510840, 72573080, 72635384, 72697736, 72760176, 72822640, 72885152, 72947712, 73010336, 73073048, 73135776, 73198560, 73261392, 73324320, 73387264, 73450264, 73513312, 73576424, 73639584, 73702832, 73766104, 73829424, 73892800, 73956272, 74019760, 74083296, 74146896, 74210544, 74274288, 74338048, 74401864, 74465728, 74529656, 74593672, 74657704, 74721792, 74785936, 74850176, 74914424, 74978736, 75043096, 75107520, 75172032, 75236560, 75301144, 75365784, 75430520, 75495272, 75560080, 75624944, 75689864, 75754880, 75819904, 75884992, 75950136, 76015328, 76080624, 76145936, 76211304, 76276720, 76342240, 76407776, 76473368, 76539016, 76604712, 76670520, 76736336, 76802208, 76868136, 76934160, 77000200, 77066304]

/-- rows 2400 to 2499 of `kcorrect-lrg1-v4.fits` -/
def lrg1Units24 : List Nat :=
  [77132456, 77198672, 77264984, 77331304, 77397688, 77464128, 77530624, 77597224, 77663832, 77730504, 77797232, 77864056, 77930896, 77997792, 78064744, 78131760, 78198872, 78266000, 78333184, 78400432, 78467776, 78535128, 78602544, 78670024, 78737552, 78805184, 78872832, 78940544, 79008304, 79076176, 79144056, 79211992, 79279992, 79348048, 79416200, 79484376, 79552608, 79620896, 79689248, 79757696, 79826160, 79894688, 79963272, 80031952, 80100656, 80169416, 80238240, 80307112, 80376096, 80445096, 80514152, 80583264, 80652440, 80721720, 80791008, 80860360, 80929776, 80999288, 81068824, 81138416, 81208064, 81277776, 81347592, 81417424, 81487312, 81557264, 81627272, 81697392, 81767520, 81837712, 81907960, 81978320, 82048688, 82119120, 82189616, 82260168, 82330832, 82401504, 82472240, 82543032, 82613888, 82684856, 82755832, 82826872, 82897976, 82969184, 83040400, 83111688, 83183032, 83254440, 83325952, 83397480, 83469072, 83540720, 83612480, 83684256, 83756096, 83827992, 83899952, 83972016]

/-- rows 2500 to 2599 of `kcorrect-lrg1-v4.fits` -/
def lrg1Units25 : List Nat :=
  [84044104, 84116248, 84188456, 84260720, 84333104, 84405496, 84477952, 84550464, 84623096, 84695736, 84768440, 84841208, 84914040, 84986976, 85059928, 85132952, 85206032, 85279216, 85352424, 85425696, 85499024, 85572416, 85645920, 85719440, 85793024, 85866672, 85940432, 86014200, 86088040, 86161936, 86235904, 86309976, 86384064, 86458224, 86532440, 86606720, 86681112, 86755520, 86829992, 86904536, 86979184, 87053848, 87128576, 87203368, 87278224, 87353192, 87428184, 87503232, 87578344, 87653528, 87728816, 87804128, 87879496, 87954936, 88030488, 88106056, 88181688, 88257384, 88333144, 88409024, 88484912, 88560872, 88636896, 88713032, 88789184, 88865400, 88941688, 89018040, 89094504, 89170984, 89247528, 89324136, 89400816, 89477608, 89554416, 89631296, 89708240, 89785296, 89862368, 89939504, 90016712, 90093984, 90171376, 90248776, 90326248, 90403792, 90481392, 90559112, 90636856, 90714656, 90792528, 90870520, 90948520, 91026592, 91104736, 91182936, 91261264, 91339608, 91418016, 91496488]

/-- rows 2600 to 2699 of `kcorrect-lrg1-v4.fits` -/
def lrg1Units26 : List Nat :=
  [91575080, 91653688, 91732368, 91811112, 91889928, 91968856, 92047808, 92126824, 92205904, 92285056, 92364328, 92443616, 92522968, 92602392, 92681936, 92761496, 92841128, 92920824, 93000584, 93080472, 93160376, 93240344, 93320384, 93400544, 93480720, 93560968, 93641280, 93721664, 93802168, 93882696, 93963280, 94043944, 94124672, 94205520, 94286392, 94367328, 94448336, 94529464, 94610608, 94691824, 94773112, 94854472, 94935944, 95017440, 95099008, 95180640, 95262344, 95344176, 95426016, 95507936, 95589920, 95672032, 95754160, 95836352, 95918624, 96000960, 96083424, 96165904, 96248456, 96331080, 96413768, 96496584, 96579424, 96662328, 96745304, 96828408, 96911528, 96994720, 97077976, 97161312, 97244768, 97328248, 97411800, 97495416, 97579112, 97662928, 97746768, 97830672, 97914656, 97998760, 98082880, 98167080, 98251344, 98335688, 98420160, 98504640, 98589200, 98673832, 98758592, 98843368, 98928216, 99013136, 99098136, 99183256, 99268400, 99353608, 99438896, 99524312, 99609752, 99695256]

/-- rows 2700 to 2799 of `kcorrect-lrg1-v4.fits` -/
def lrg1Units27 : List Nat :=
  [99780840, 99866488, 99952272, 100038072, 100123952, 100209896, 100295920, 100382072, 100468240, 100554488, 100640808, 100727200, 100813720, 100900256, 100986872, 101073560, 101160384, 101247224, 101334136, 101421120, 101508184, 101595376, 101682592, 101769872, 101857240, 101944728, 102032240, 102119824, 102207488, 102295224, 102383096, 102470984, 102558944, 102646984, 102735096, 102823344, 102911616, 102999952, 103088368, 103176920, 103265488, 103354136, 103442856, 103531656, 103620584, 103709536, 103798560, 103887664, 103976904, 104066160, 104155488, 104244904, 104334384, 104424008, 104513648, 104603368, 104693160, 104783032, 104873032, 104963064, 105053160, 105143344, 105233656, 105323992, 105414408, 105504896, 105595464, 105686168, 105776888, 105867688, 105958568, 106049584, 106140624, 106231736, 106322928, 106414200, 106505600, 106597032, 106688536, 106780120, 106871784, 106963584, 107055400, 107147304, 107239280, 107331392, 107423528, 107515744, 107608040, 107700408, 107792920, 107885456, 107978064, 108070760, 108163584, 108256440, 108349368, 108442376, 108535464, 108628696]

/-- rows 2800 to 2899 of `kcorrect-lrg1-v4.fits` -/
def lrg1Units28 : List Nat :=
  [108721944, 108815272, 108908680, 109002176, 109095800, 109189456, 109283184, 109376992, 109470944, 109564920, 109658968, 109753104, 109847320, 109941672, 110036048, 110130512, 110225048, 110319664, 110414432, 110509208, 110604072, 110699016, 110794104, 110889216, 110984408, 111079680, 111175032, 111270528, 111366040, 111461640, 111557320, 111653144, 111748992, 111844920, 111940928, 112037024, 112133264, 112229520, 112325856, 112422280, 112518784, 112615440, 112712112, 112808864, 112905704, 113002688, 113099688, 113196776, 113293944, 113391200, 113488600, 113586024, 113683528, 113781112, 113878784, 113976608, 114074448, 114172368, 114270376, 114368536, 114466712, 114564968, 114663320, 114761744, 114860320, 114958920, 115057608, 115156376, 115255224, 115354224, 115453248, 115552360, 115651552, 115750888, 115850256, 115949704, 116049240, 116148920, 116248624, 116348416, 116448288, 116548256, 116648368, 116748496, 116848720, 116949024, 117049416, 117149960, 117250520, 117351168, 117451912, 117552800, 117653704, 117754704, 117855784, 117956960, 118058280, 118159624, 118261056, 118362568]

/-- rows 2900 to 2999 of `kcorrect-lrg1-v4.fits` -/
def lrg1Units29 : List Nat :=
  [118464176, 118565936, 118667712, 118769584, 118871536, 118973640, 119075768, 119177992, 119280296, 119382688, 119485232, 119587800, 119690456, 119793200, 119896104, 119999024, 120102032, 120205136, 120308320, 120411664, 120515024, 120618480, 120722016, 120825648, 120929432, 121033248, 121137144, 121241128, 121345272, 121449440, 121553696, 121658040, 121762472, 121867064, 121971672, 122076376, 122181168, 122286120, 122391096, 122496160, 122601312, 122706552, 122811960, 122917384, 123022896, 123128504, 123234200, 123340056, 123445928, 123551896, 123657960, 123764176, 123870416, 123976752, 124083176, 124189696, 124296368, 124403064, 124509856, 124616736, 124723712, 124830848, 124938008, 125045256, 125152600, 125260032, 125367624, 125475240, 125582952, 125690760, 125798720, 125906712, 126014792, 126122968, 126231232, 126339664, 126448112, 126556664, 126665296, 126774104, 126882928, 126991848, 127100856, 127209968, 127319232, 127428528, 127537920, 127647400, 127756976, 127866712, 127976480, 128086336, 128196288, 128306400, 128416544, 128526784, 128637112, 128747536, 128858128, 128968744]

/-- rows 3000 to 3099 of `kcorrect-lrg1-v4.fits` -/
def lrg1Units30 : List Nat :=
  [129079448, 129190256, 129301224, 129412224, 129523312, 129634496, 129745776, 129857224, 129968696, 130080264, 130191928, 130303760, 130415616, 130527568, 130639616, 130751760, 130864072, 130976408, 131088840, 131201376, 131314000, 131426792, 131539616, 131652528, 131765544, 131878656, 131991936, 132105240, 132218640, 132332144, 132445808, 132559504, 132673296, 132787184, 132901176, 133015336, 133129512, 133243800, 133358176, 133472728, 133587304, 133701976, 133816752, 133931624, 134046664, 134161736, 134276896, 134392160, 134507536, 134623072, 134738640, 134854304, 134970064, 135086000, 135201952, 135318016, 135434176, 135550432, 135666864, 135783328, 135899888, 136016544, 136133312, 136250240, 136367200, 136484256, 136601424, 136718768, 136836128, 136953584, 137071152, 137188816, 137306656, 137424528, 137542496, 137660560, 137778816, 137897088, 138015456, 138133936, 138252512, 138371264, 138490048, 138608928, 138727920, 138847072, 138966272, 139085552, 139204944, 139324448, 139444128, 139563824, 139683632, 139803536, 139923552, 140043744, 140163952, 140284272, 140404704, 140525296]

/-- rows 3100 to 3199 of `kcorrect-lrg1-v4.fits` -/
def lrg1Units31 : List Nat :=
  [140645936, 140766672, 140887504, 141008448, 141129568, 141250720, 141371968, 141493328, 141614864, 141736432, 141858096, 141979872, 142101744, 142223808, 142345904, 142468096, 142590400, 142712800, 142835376, 142958000, 143080720, 143203536, 143326544, 143449584, 143572720, 143695968, 143819312, 143942848, 144066416, 144190080, 144313856, 144437744, 144561808, 144685904, 144810112, 144934416, 145058912, 145183440, 145308064, 145432800, 145557648, 145682672, 145807728, 145932896, 146058160, 146183552, 146309120, 146434704, 146560416, 146686224, 146812224, 146938256, 147064384, 147190624, 147316976, 147443520, 147570096, 147696768, 147823552, 147950528, 148077536, 148204640, 148331872, 148459200, 148586720, 148714272, 148841936, 148969696, 149097584, 149225648, 149353744, 149481952, 149610272, 149738784, 149867328, 149995984, 150124736, 150253696, 150382672, 150511760, 150640960, 150770272, 150899696, 151029328, 151158976, 151288720, 151418592, 151548656, 151678752, 151808960, 151939280, 152069696, 152200320, 152330976, 152461744, 152592624, 152723616, 152854800, 152986000, 153117328]

/-- rows 3200 to 3299 of `kcorrect-lrg1-v4.fits` -/
def lrg1Units32 : List Nat :=
  [153248768, 153380416, 153512080, 153643856, 153775744, 153907840, 154039952, 154172176, 154304528, 154436992, 154569552, 154702336, 154835136, 154968048, 155101072, 155234304, 155367552, 155500928, 155634416, 155768096, 155901808, 156035648, 156169584, 156303648, 156437904, 156572192, 156706608, 156841120, 156975760, 157110592, 157245456, 157380448, 157515552, 157650752, 157786176, 157921632, 158057184, 158192960, 158328752, 158464672, 158600688, 158736848, 158873184, 159009568, 159146064, 159282688, 159419408, 159556352, 159693312, 159830400, 159967600, 160104928, 160242448, 160380000, 160517680, 160655472, 160793376, 160931504, 161069648, 161207904, 161346304, 161484896, 161623504, 161762256, 161901120, 162040096, 162179280, 162318496, 162457840, 162597296, 162736960, 162876656, 163016480, 163156416, 163296464, 163436736, 163577040, 163717456, 163857984, 163998736, 164139424, 164280416, 164421536, 164562592, 164703936, 164845232, 164986832, 165128544, 165270208, 165412176, 165554080, 165696288, 165838608, 165980880, 166123456, 166265968, 166408784, 166551728, 166694608, 166837792]

/-- rows 3300 to 3399 of `kcorrect-lrg1-v4.fits` -/
def lrg1Units33 : List Nat :=
  [166981104, 167124352, 167267904, 167411392, 167555200, 167699120, 167842992, 167987168, 168131280, 168275696, 168420240, 168564720, 168709520, 168854240, 168999280, 169144448, 169289552, 169434976, 169580320, 169725984, 169871776, 170017504, 170163552, 170309520, 170455824, 170602240, 170748592, 170895264, 171042048, 171188784, 171335824, 171482816, 171630112, 171777536, 171924896, 172072576, 172220192, 172368128, 172516192, 172664192, 172812496, 172960752, 173109312, 173258016, 173406656, 173555600, 173704672, 173853696, 174003024, 174152304, 174301888, 174451616, 174601280, 174751248, 174901168, 175051408, 175201760, 175352064, 175502688, 175653248, 175804128, 175955136, 176106080, 176257360, 176408560, 176560096, 176711760, 176863344, 177015264, 177167328, 177319312, 177471616, 177623872, 177776448, 177929152, 178081792, 178234752, 178387664, 178540896, 178694256, 178847552, 179001168, 179154736, 179308624, 179462640, 179616592, 179770880, 179925104, 180079648, 180234336, 180388960, 180543904, 180698784, 180854000, 181009360, 181164640, 181320256, 181476000, 181631680, 181787696]

/-- rows 3400 to 3499 of `kcorrect-lrg1-v4.fits` -/
def lrg1Units34 : List Nat :=
  [181943648, 182099936, 182256352, 182412704, 182569392, 182726016, 182882976, 183040064, 183197088, 183354448, 183511744, 183669376, 183827136, 183984848, 184142880, 184300848, 184459168, 184617600, 184775984, 184934704, 185093552, 185252352, 185411472, 185570528, 185729936, 185889472, 186048944, 186208752, 186368496, 186528576, 186688800, 186848960, 187009456, 187169888, 187330656, 187491568, 187652416, 187813600, 187974720, 188136192, 188297792, 188459328, 188621200, 188783024, 188945184, 189107472, 189269712, 189432288, 189595008, 189757648, 189920640, 190083568, 190246848, 190410272, 190573616, 190737312, 190900944, 191064912, 191229040, 191393088, 191557488, 191721824, 191886512, 192051328, 192216080, 192381200, 192546240, 192711632, 192877152, 193042624, 193208448, 193374400, 193540288, 193706544, 193872720, 194039248, 194205920, 194372528, 194539488, 194706368, 194873616, 195041008, 195208336, 195376016, 195543616, 195711584, 195879696, 196047744, 196216144, 196384688, 196553152, 196721984, 196890752, 197059872, 197229136, 197398336, 197567904, 197737392, 197907232, 198077232]

/-- rows 3500 to 3599 of `kcorrect-lrg1-v4.fits` -/
def lrg1Units35 : List Nat :=
  [198247168, 198417456, 198587664, 198758240, 198928976, 199099632, 199270656, 199441600, 199612912, 199784384, 199955760, 200127520, 200299200, 200471264, 200643456, 200815584, 200988080, 201160720, 201333296, 201506240, 201679104, 201852336, 202025728, 202199040, 202372720, 202546336, 202720304, 202894448, 203068496, 203242928, 203417280, 203592016, 203766896, 203941696, 204116880, 204291984, 204467472, 204643104, 204818656, 204994592, 205170448, 205346688, 205523072, 205699392, 205876080, 206052912, 206229680, 206406832, 206583904, 206761344, 206938960, 207116480, 207294384, 207472224, 207650432, 207828800, 208007088, 208185760, 208364352, 208543344, 208722464, 208901536, 209080976, 209260336, 209440080, 209619984, 209799808, 209980032, 210160400, 210340688, 210521360, 210701968, 210882944, 211064096, 211245152, 211426608, 211607984, 211789760, 211971680, 212153520, 212335760, 212517904, 212700464, 212883168, 213065792, 213248800, 213431744, 213615072, 213798560, 213981984, 214165776, 214349744, 214533632, 214717904, 214902112, 215086704, 215271456, 215456128, 215641200, 215826192]

/-- rows 3600 to 3699 of `kcorrect-lrg1-v4.fits` -/
def lrg1Units36 : List Nat :=
  [216011584, 216197136, 216382608, 216568464, 216754256, 216940448, 217126784, 217313056, 217499728, 217686544, 217873296, 218060448, 218247504, 218434976, 218622608, 218810160, 218998112, 219185984, 219374256, 219562688, 219751056, 219939808, 220128496, 220317584, 220506816, 220695984, 220885568, 221075056, 221264944, 221455008, 221644992, 221835376, 222025680, 222216400, 222407280, 222598080, 222789280, 222980656, 223171936, 223363632, 223555248, 223747280, 223939472, 224131584, 224324112, 224516544, 224709408, 224902416, 225095360, 225288704, 225481984, 225675664, 225869520, 226063280, 226257456, 226451568, 226646080, 226840768, 227035360, 227230384, 227425568, 227620672, 227816192, 228011616, 228207472, 228403504, 228599440, 228795808, 228992080, 229188784, 229385648, 229582432, 229779632, 229976752, 230174304, 230372016, 230569648, 230767696, 230965664, 231164064, 231362624, 231561104, 231760000, 231958832, 232158080, 232357488, 232556816, 232756576, 232956512, 233156368, 233356640, 233556832, 233757440, 233958240, 234158944, 234360080, 234561136, 234762608, 234964272, 235165840]

/-- rows 3700 to 3799 of `kcorrect-lrg1-v4.fits` -/
def lrg1Units37 : List Nat :=
  [235367840, 235569744, 235772096, 235974624, 236177056, 236379920, 236582704, 236785936, 236989328, 237192624, 237396368, 237600288, 237804112, 238008384, 238212560, 238417184, 238621984, 238826688, 239031824, 239236896, 239442384, 239648064, 239853648, 240059680, 240265616, 240472000, 240678560, 240885024, 241091936, 241298768, 241506032, 241713488, 241920848, 242128640, 242336624, 242544528, 242752864, 242961120, 243169808, 243378688, 243587472, 243796704, 244005856, 244215456, 244425216, 244634912, 244845040, 245055088, 245265584, 245476256, 245686848, 245897888, 246108832, 246320240, 246531824, 246743312, 246955264, 247167120, 247379424, 247591920, 247804320, 248017168, 248230208, 248443168, 248656576, 248869888, 249083664, 249297616, 249511488, 249725808, 249940032, 250154736, 250369600, 250584384, 250799632, 251014784, 251230400, 251446208, 251661904, 251878080, 252094432, 252310704, 252527424, 252744064, 252961168, 253178448, 253395648, 253613312, 253830880, 254048912, 254267136, 254485264, 254703856, 254922368, 255141328, 255360496, 255579552, 255799088, 256018544, 256238448]

/-- rows 3800 to 3899 of `kcorrect-lrg1-v4.fits` -/
def lrg1Units38 : List Nat :=
  [256458544, 256678560, 256899040, 257119712, 257340288, 257561328, 257782288, 258003712, 258225328, 258446864, 258668864, 258890768, 259113136, 259335712, 259558192, 259781136, 260004000, 260227344, 260450864, 260674304, 260898208, 261122032, 261346320, 261570816, 261795216, 262020080, 262244864, 262470128, 262695584, 262920944, 263146784, 263372816, 263598752, 263825184, 264051504, 264278320, 264505328, 264732240, 264959632, 265186944, 265414736, 265642720, 265870608, 266098976, 266327248, 266556016, 266784992, 267013856, 267243216, 267472480, 267702224, 267932176, 268162032, 268392368, 268622624, 268853344, 269084288, 269315136, 269546464, 269777984, 270009440, 270241376, 270473184, 270705536, 270938048, 271170496, 271403424, 271636256, 271869568, 272103104, 272336544, 272570464, 272804288, 273038624, 273273152, 273507584, 273742528, 273977344, 274212704, 274448224, 274683680, 274919616, 275155776, 275391808, 275628384, 275864832, 276101792, 276338944, 276576032, 276813600, 277051072, 277289024, 277527232, 277765312, 278003904, 278242400, 278481408, 278720608, 278959712, 279199328]

/-- rows 3900 to 3999 of `kcorrect-lrg1-v4.fits` -/
def lrg1Units39 : List Nat :=
  [279438848, 279678880, 279919104, 280159232, 280399904, 280640736, 280881504, 281122784, 281363936, 281605632, 281847520, 282089312, 282331616, 282573824, 282816544, 283059456, 283302304, 283545664, 283788896, 284032672, 284276640, 284520512, 284764896, 285009184, 285254016, 285499040, 285743968, 285989408, 286235072, 286480608, 286726688, 286972672, 287219168, 287465888, 287712480, 287959648, 288206656, 288454240, 288702016, 288949664, 289197856, 289445952, 289694592, 289943424, 290192160, 290441440, 290690592, 290940288, 291190208, 291440000, 291690336, 291940896, 292191328, 292442336, 292693216, 292944608, 293196256, 293447776, 293699840, 293951808, 294204288, 294456992, 294709600, 294962752, 295215808, 295469376, 295723200, 295976864, 296231104, 296485248, 296739904, 296994816, 297249600, 297504928, 297760128, 298015904, 298271904, 298527776, 298784192, 299040864, 299297376, 299554464, 299811456, 300068992, 300326752, 300584384, 300842560, 301100672, 301359296, 301618144, 301876896, 302136192, 302395392, 302655136, 302915136, 303174976, 303435392, 303695712, 303956576, 304217664]

/-- rows 4000 to 4099 of `kcorrect-lrg1-v4.fits` -/
def lrg1Units40 : List Nat :=
  [304478656, 304740192, 305001952, 305263616, 305525824, 305787904, 306050592, 306313472, 306576256, 306839584, 307102816, 307366624, 307630624, 307894528, 308159008, 308423360, 308688288, 308953440, 309218496, 309484096, 309749600, 310015680, 310281952, 310548160, 310814912, 311081888, 311348768, 311616192, 311883520, 312151424, 312419552, 312687552, 312956160, 313224640, 313493696, 313762976, 314032128, 314301888, 314571520, 314841728, 315112160, 315382496, 315653376, 315924192, 316195552, 316467136, 316738656, 317010720, 317283008, 317555200, 317827968, 318100640, 318373856, 318647328, 318920704, 319194656, 319468480, 319742880, 320017536, 320292064, 320567200, 320842208, 321117792, 321393632, 321669344, 321945632, 322221824, 322498624, 322775616, 323052544, 323330016, 323607744, 323885376, 324163584, 324441664, 324720352, 324998912, 325278080, 325557504, 325836768, 326116672, 326396800, 326676800, 326957408, 327237888, 327518976, 327800320, 328081536, 328363328, 328645024, 328927328, 329209856, 329492288, 329775296, 330058592, 330341728, 330625472, 330909120, 331193344, 331477856]

/-- rows 4100 to 4199 of `kcorrect-lrg1-v4.fits` -/
def lrg1Units41 : List Nat :=
  [331762208, 332047168, 332332032, 332617504, 332903200, 333188800, 333475008, 333761088, 334047776, 334334720, 334621536, 334908960, 335196256, 335484192, 335772352, 336060416, 336349088, 336637632, 336926784, 337216192, 337505472, 337795392, 338085536, 338375584, 338666240, 338956768, 339247936, 339539328, 339830624, 340122528, 340414304, 340706688, 340999360, 341291904, 341585056, 341878080, 342171744, 342465664, 342759456, 343053888, 343348192, 343643104, 343938272, 344233344, 344529024, 344824576, 345120800, 345417248, 345713568, 346010528, 346307744, 346604832, 346902528, 347200128, 347498368, 347796864, 348095232, 348394240, 348693120, 348992640, 349292416, 349592064, 349892352, 350192512, 350493312, 350794368, 351095328, 351396896, 351698336, 352000448, 352302816, 352605024, 352907904, 353211040, 353514080, 353817728, 354121248, 354425440, 354729888, 355034176, 355339168, 355644000, 355949472, 356255232, 356560864, 356867136, 357173280, 357480064, 357787136, 358094080, 358401664, 358709120, 359017248, 359325632, 359633888, 359942816, 360252000, 360561056, 360870752, 361180320]

/-- rows 4200 to 4299 of `kcorrect-lrg1-v4.fits` -/
def lrg1Units42 : List Nat :=
  [361490592, 361801088, 362111456, 362422528, 362733440, 363044992, 363356832, 363668576, 363980928, 364293184, 364606112, 364919296, 365232352, 365546080, 365860064, 366173920, 366488448, 366802880, 367117952, 367433280, 367748480, 368064384, 368380128, 368696544, 369013248, 369329824, 369647072, 369964192, 370281984, 370600032, 370917952, 371236576, 371555040, 371874208, 372193632, 372512928, 372832896, 373152736, 373473280, 373794080, 374114752, 374436096, 374757312, 375079232, 375401408, 375723456, 376046176, 376369184, 376692064, 377015648, 377339072, 377663200, 377987584, 378311872, 378636832, 378961632, 379287168, 379612960, 379938624, 380264992, 380591200, 380918112, 381245312, 381572384, 381900128, 382228160, 382556064, 382884672, 383213152, 383542304, 383871776, 384201088, 384531104, 384860992, 385191552, 385522432, 385853152, 386184608, 386515904, 386847904, 387180192, 387512352, 387845216, 388177920, 388511360, 388845088, 389178656, 389512960, 389847552, 390181984, 390517120, 390852160, 391187872, 391523456, 391859776, 392196384, 392532832, 392870016, 393207456, 393544800]

/-- rows 4300 to 4399 of `kcorrect-lrg1-v4.fits` -/
def lrg1Units43 : List Nat :=
  [393882848, 394220736, 394559360, 394898272, 395237056, 395576544, 395915904, 396255968, 396596352, 396936576, 397277536, 397618368, 397959904, 398301728, 398643424, 398985856, 399328576, 399671136, 400014432, 400357600, 400701504, 401045696, 401389728, 401734528, 402079168, 402424544, 402770208, 403115744, 403461984, 403808128, 404154976, 404502144, 404849152, 405196896, 405544512, 405892864, 406241504, 406590016, 406939264, 407288352, 407638208, 407988352, 408338368, 408689120, 409040160, 409391072, 409742720, 410094240, 410446496, 410799072, 411151456, 411504640, 411857664, 412211424, 412565504, 412919424, 413274112, 413628672, 413983968, 414339552, 414695008, 415051232, 415407744, 415764096, 416121248, 416478208, 416835968, 417194016, 417551904, 417910560, 418269088, 418628352, 418987968, 419347392, 419707616, 420067648, 420428480, 420789632, 421150592, 421512352, 421873952, 422236352, 422599040, 422961568, 423324896, 423688032, 424051968, 424416224, 424780320, 425145184, 425509920, 425875424, 426241248, 426606880, 426973344, 427340096, 427706688, 428074080, 428441312, 428809344]

/-- rows 4400 to 4499 of `kcorrect-lrg1-v4.fits` -/
def lrg1Units44 : List Nat :=
  [429177664, 429545856, 429914816, 430283648, 430653248, 431023168, 431392928, 431763488, 432133856, 432505056, 432876576, 433247936, 433620064, 433992544, 434364864, 434737952, 435110912, 435484640, 435858720, 436232640, 436607360, 436981888, 437357248, 437732928, 438108448, 438484768, 438860928, 439237920, 439615200, 439992352, 440370272, 440748064, 441126656, 441505568, 441884320, 442263872, 442643776, 443023520, 443404064, 443784448, 444165632, 444547168, 444928544, 445310720, 445692736, 446075584, 446458720, 446841728, 447225568, 447609216, 447993696, 448378528, 448763168, 449148640, 449533952, 449920096, 450306560, 450692864, 451080000, 451467488, 451854784, 452242912, 452630880, 453019680, 453408800, 453797760, 454187584, 454577216, 454967680, 455358464, 455749120, 456140608, 456531904, 456924064, 457316544, 457708864, 458102016, 458495008, 458888832, 459283008, 459677024, 460071872, 460466560, 460862080, 461257952, 461653664, 462050208, 462447072, 462843808, 463241376, 463638784, 464037024, 464435616, 464834048, 465233344, 465632448, 466032416, 466432704, 466832864, 467233856]

/-- rows 4500 to 4599 of `kcorrect-lrg1-v4.fits` -/
def lrg1Units45 : List Nat :=
  [467634688, 468036352, 468438400, 468840256, 469242976, 469645536, 470048928, 470452704, 470856288, 471260736, 471665024, 472070176, 472475680, 472880992, 473287168, 473693728, 474100096, 474507328, 474914400, 475322336, 475730624, 476138752, 476547744, 476956544, 477366240, 477776288, 478186144, 478596896, 479007488, 479418944, 479830752, 480242368, 480654880, 481067232, 481480448, 481894048, 482307424, 482721728, 483136384, 483550848, 483966208, 484381376, 484797440, 485213888, 485630112, 486047264, 486464224, 486882080, 487300320, 487718368, 488137280, 488556064, 488975712, 489395712, 489815552, 490236288, 490656864, 491078336, 491500160, 491921792, 492344320, 492767232, 493189984, 493613600, 494037056, 494461440, 494886176, 495310720, 495736160, 496161440, 496587648, 497014208, 497440576, 497867872, 498294976, 498722976, 499151360, 499579584, 500008704, 500437664, 500867520, 501297760, 501727808, 502158752, 502590112, 503021248, 503453344, 503885248, 504318080, 504751264, 505184288, 505618208, 506051968, 506486656, 506921728, 507356576, 507792384, 508228000, 508664576, 509101504]

/-- rows 4600 to 4699 of `kcorrect-lrg1-v4.fits` -/
def lrg1Units46 : List Nat :=
  [509538240, 509975904, 510413408, 510851840, 511290656, 511729280, 512168832, 512608768, 513048512, 513489216, 513929728, 514371168, 514813024, 515254656, 515697248, 516139648, 516583008, 517026720, 517470272, 517914752, 518359072, 518804320, 519249952, 519695424, 520141824, 520588032, 521035200, 521482752, 521930112, 522378464, 522827168, 523275680, 523725152, 524174432, 524624704, 525075328, 525525792, 525977184, 526428416, 526880608, 527333184, 527785568, 528238912, 528692064, 529146208, 529600736, 530055072, 530510368, 530965472, 531421568, 531878048, 532334304, 532791584, 533248640, 533706688, 534165120, 534623392, 535082592, 535542240, 536001664, 536462048, 536922304, 537383488, 537845056, 538306496, 538768896, 539231040, 539694272, 540157824, 540621248, 541085568, 541549760, 542014976, 542480512, 542945920, 543412288, 543879040, 544345664, 544813248, 545280576, 545748992, 546217792, 546686336, 547155968, 547625344, 548095744, 548566528, 549037120, 549508736, 549980160, 550452544, 550925376, 551398016, 551871616, 552345088, 552819520, 553294400, 553769024, 554244736, 554720192]

/-- rows 4700 to 4799 of `kcorrect-lrg1-v4.fits` -/
def lrg1Units47 : List Nat :=
  [555196672, 555673536, 556150272, 556627968, 557105472, 557584064, 558062976, 558541760, 559021504, 559501696, 559981696, 560462656, 560943488, 561425344, 561907584, 562389632, 562872704, 563355584, 563839488, 564323776, 564807936, 565293056, 565777984, 566264000, 566750400, 567236608, 567723840, 568211520, 568698944, 569187456, 569675776, 570165056, 570654848, 571144384, 571635008, 572125376, 572616832, 573108672, 573600320, 574093056, 574585536, 575079104, 575573056, 576066816, 576561664, 577056256, 577551936, 578048064, 578543936, 579040896, 579538304, 580035456, 580533696, 581031680, 581530816, 582030336, 582529600, 583030016, 583530176, 584031424, 584533056, 585034496, 585537024, 586039360, 586542784, 587046592, 587550208, 588054912, 588559360, 589064896, 589570880, 590076672, 590583552, 591090176, 591597888, 592106112, 592614016, 593123072, 593632576, 594141824, 594652160, 595162304, 595673536, 596185216, 596696640, 597209216, 597721536, 598234944, 598748800, 599262464, 599777216, 600291776, 600807360, 601323456, 601839296, 602356288, 602873024, 603390848, 603909184, 604427264]

/-- rows 4800 to 4899 of `kcorrect-lrg1-v4.fits` -/
def lrg1Units48 : List Nat :=
  [604946432, 605465408, 605985472, 606505984, 607026304, 607547712, 608069568, 608591232, 609113984, 609636544, 610160192, 610684288, 611208192, 611733248, 612257984, 612783936, 613310272, 613836416, 614363712, 614890752, 615418944, 615947520, 616475968, 617005504, 617534784, 618065216, 618596160, 619126848, 619658624, 620190912, 620722944, 621256128, 621789056, 622323200, 622857728, 623392064, 623927552, 624462784, 624999232, 625536064, 626072704, 626610496, 627148032, 627686720, 628225856, 628764800, 629304896, 629844800, 630385792, 630927296, 631468544, 632010944, 632553856, 633096512, 633640320, 634183872, 634728640, 635273856, 635818816, 636364992, 636910912, 637457984, 638005568, 638552896, 639101376, 639649664, 640199104, 640748992, 641298688, 641849536, 642400832, 642951936, 643504256, 644056256, 644609536, 645163200, 645716672, 646271296, 646825728, 647381376, 647937408, 648493312, 649050304, 649607104, 650165120, 650723584, 651281856, 651841280, 652400448, 652960832, 653521728, 654082368, 654644224, 655205824, 655768640, 656331904, 656894976, 657459200, 658023936, 658588416]

/-- rows 4900 to 4999 of `kcorrect-lrg1-v4.fits` -/
def lrg1Units49 : List Nat :=
  [659154176, 659719616, 660286272, 660853440, 661420416, 661988544, 662556416, 663125568, 663695168, 664264512, 664835136, 665405440, 665977024, 666549056, 667120896, 667693952, 668266752, 668840768, 669415296, 669989568, 670565056, 671141056, 671716800, 672293760, 672870528, 673448512, 674026944, 674605184, 675184640, 675763904, 676344384, 676925312, 677506048, 678088000, 678669696, 679252672, 679836096, 680419328, 681003776, 681588032, 682173504, 682759424, 683345152, 683932160, 684518848, 685106816, 685695360, 686283584, 686873088, 687463104, 688052800, 688643840, 689234624, 689826624, 690419200, 691011456, 691605056, 692198336, 692792960, 693388032, 693982848, 694578944, 695174848, 695771968, 696369600, 696967040, 697565696, 698164096, 698763840, 699364032, 699964032, 700565248, 701167040, 701768512, 702371328, 702973888, 703577728, 704182080, 704786176, 705391552, 705996672, 706603136, 707210048, 707816768, 708424768, 709032512, 709641536, 710251072, 710860416, 711471040, 712081344, 712693056, 713305216, 713917120, 714530368, 715144128, 715757632, 716372480, 716987008, 717602880]

/-- rows 5000 to 5099 of `kcorrect-lrg1-v4.fits` -/
def lrg1Units50 : List Nat :=
  [718219264, 718835392, 719452864, 720070080, 720688576, 721307648, 721926464, 722546560, 723166400, 723787584, 724409280, 725030784, 725653504, 726276032, 726899904, 727524288, 728148416, 728773888, 729399872, 730025600, 730652672, 731279488, 731907648, 732536320, 733164736, 733794496, 734424000, 735054848, 735686272, 736317376, 736949824, 737582080, 738215616, 738849728, 739483584, 740118784, 740753664, 741389952, 742026816, 742663360, 743301312, 743939776, 744577984, 745217536, 745856832, 746497536, 747138752, 747779712, 748422016, 749064064, 749707520, 750351488, 750995200, 751640256, 752285056, 752931264, 753578048, 754224512, 754872320, 755519936, 756168896, 756818432, 757467712, 758118336, 758768704, 759420480, 760072768, 760724800, 761378240, 762032256, 762686016, 763341120, 763995968, 764652224, 765309056, 765965568, 766623552, 767281216, 767940288, 768599872, 769259264, 769920064, 770580544, 771242432, 771904896, 772567104, 773230720, 773894080, 774558784, 775224128, 775889152, 776555648, 777222656, 777889408, 778557632, 779225536, 779894848, 780564800, 781234368, 781905472]

/-- rows 5100 to 5199 of `kcorrect-lrg1-v4.fits` -/
def lrg1Units51 : List Nat :=
  [782576256, 783248448, 783921216, 784593728, 785267648, 785941312, 786616448, 787292096, 787967488, 788644352, 789320896, 789998912, 790677504, 791355776, 792035584, 792715008, 793395968, 794077440, 794758656, 795441344, 796124608, 796807552, 797492032, 798176192, 798861760, 799547968, 800233856, 800921280, 801608320, 802296896, 802986048, 803674944, 804365248, 805055296, 805746816, 806438912, 807130752, 807824064, 808517056, 809211584, 809906624, 810601472, 811297728, 811994624, 812691200, 813389312, 814087040, 814786368, 815486208, 816185792, 816886912, 817587648, 818289984, 818992832, 819695424, 820399552, 821103360, 821808640, 822514560, 823220160, 823927296, 824634112, 825342464, 826051392, 826760064, 827470208, 828180992, 828891456, 829603456, 830315136, 831028352, 831742208, 832455744, 833170752, 833885504, 834601792, 835318720, 836035328, 836753408, 837471296, 838190656, 838910592, 839630272, 840351488, 841072448, 841794880, 842517952, 843240704, 843965056, 844689984, 845414656, 846140800, 846866688, 847594112, 848322176, 849049920, 849779264, 850508288, 851238848, 851970048]

/-- rows 5200 to 5299 of `kcorrect-lrg1-v4.fits` -/
def lrg1Units52 : List Nat :=
  [852700928, 853433344, 854165504, 854899200, 855633536, 856367552, 857103168, 857838400, 858575296, 859312768, 860049984, 860788736, 861527168, 862267200, 863007872, 863748224, 864490112, 865232704, 865974976, 866718848, 867462336, 868207488, 868953280, 869698688, 870445760, 871192512, 871940800, 872689792, 873438464, 874188672, 874938624, 875690176, 876442368, 877194240, 877947776, 878700928, 879455680, 880211136, 880966208, 881722944, 882480320, 883237376, 883996032, 884754432, 885514368, 886275008, 887035328, 887797312, 888558912, 889322176, 890086080, 890849600, 891614848, 892379712, 893146240, 893913472, 894680320, 895448832, 896217024, 896986816, 897757312, 898527488, 899299264, 900071744, 900843904, 901617728, 902391168, 903166336, 903942080, 904717568, 905494720, 906271488, 907049984, 907829120, 908607872, 909388352, 910168512, 910950336, 911732800, 912514944, 913298752, 914082240, 914867456, 915653248, 916438784, 917225984, 918013888, 918801408, 919590592, 920379520, 921170112, 921961344, 922752256, 923544896, 924337152, 925131136, 925925824, 926720128, 927516160, 928311872]

/-- rows 5300 to 5399 of `kcorrect-lrg1-v4.fits` -/
def lrg1Units53 : List Nat :=
  [929109248, 929907328, 930705088, 931504512, 932303616, 933104448, 933905984, 934707136, 935510016, 936312576, 937116864, 937921792, 938726400, 939532800, 940339776, 941146496, 941954944, 942763008, 943572800, 944383296, 945193472, 946005376, 946816896, 947630208, 948444160, 949257856, 950073216, 950888256, 951705024, 952522560, 953339648, 954158592, 954977088, 955797440, 956618432, 957439104, 958261504, 959084608, 959907392, 960731904, 961556096, 962382080, 963208704, 964035008, 964863104, 965690816, 966520320, 967350528, 968180416, 969012032, 969843328, 970676416, 971510208, 972343616, 973178816, 974013696, 974850368, 975687744, 976524736, 977363520, 978203072, 979042240, 979883200, 980723840, 981566272, 982409408, 983252160, 984096768, 984940992, 985787008, 986633792, 987480192, 988328384, 989176256, 990025920, 990876352, 991726400, 992578240, 993429760, 994283072, 995137152, 995990848, 996846400, 997702656, 998558528, 999416256, 1000273664, 1001132864, 1001992832, 1002852416, 1003713792, 1004574848, 1005437760, 1006301440, 1007164672, 1008029824, 1008894592, 1009761216, 1010628544, 1011495552]

/-- rows 5400 to 5499 of `kcorrect-lrg1-v4.fits` -/
def lrg1Units54 : List Nat :=
  [1012364416, 1013232896, 1014103232, 1014974272, 1015844992, 1016717568, 1017590912, 1018463872, 1019338752, 1020213184, 1021089536, 1021966592, 1022843328, 1023721920, 1024600128, 1025480256, 1026361088, 1027241600, 1028123968, 1029005952, 1029889856, 1030774464, 1031658752, 1032544960, 1033430720, 1034318400, 1035206848, 1036094912, 1036984896, 1037874496, 1038766016, 1039658304, 1040550208, 1041443968, 1042338560, 1043232768, 1044128896, 1045024576, 1045922240, 1046820672, 1047718720, 1048618688, 1049518272, 1050419776, 1051322048, 1052223936, 1053127744, 1054031232, 1054936576, 1055842752, 1056748544, 1057656256, 1058563584, 1059472896, 1060382912, 1061292608, 1062204224, 1063116608, 1064028672, 1064942592, 1065856192, 1066771712, 1067688064, 1068604032, 1069521920, 1070439424, 1071358912, 1072279168, 1073199040, 1074120832, 1075042304, 1075965824, 1076889984, 1077813888, 1078739712, 1079665024, 1080592512, 1081520640, 1082448512, 1083378304, 1084308864, 1085239040, 1086171264, 1087103104, 1088036864, 1088971392, 1089905664, 1090841856, 1091777664, 1092715392, 1093654016, 1094592256, 1095532544, 1096472320, 1097414144, 1098356864, 1099299072, 1100243328, 1101187200, 1102133120]

/-- rows 5500 to 5599 of `kcorrect-lrg1-v4.fits` -/
def lrg1Units55 : List Nat :=
  [1103079808, 1104026112, 1104974464, 1105922304, 1106872320, 1107823104, 1108773504, 1109725824, 1110679040, 1111631872, 1112586752, 1113541248, 1114497664, 1115455104, 1116411904, 1117370880, 1118329472, 1119290112, 1120251520, 1121212544, 1122175616, 1123138304, 1124103040, 1125068672, 1126033792, 1127001088, 1127969152, 1128936832, 1129906560, 1130875776, 1131847168, 1132818176, 1133791232, 1134765184, 1135738624, 1136714240, 1137690624, 1138666624, 1139644672, 1140622336, 1141602176, 1142582784, 1143562880, 1144545152, 1145527040, 1146511104, 1147495808, 1148480256, 1149466752, 1150452864, 1151441152, 1152430208, 1153418752, 1154409600, 1155401088, 1156392320, 1157385600, 1158378496, 1159373568, 1160369408, 1161364864, 1162362496, 1163359616, 1164358912, 1165359104, 1166358784, 1167360640, 1168362112, 1169365632, 1170370176, 1171374208, 1172380288, 1173387392, 1174393984, 1175402752, 1176411136, 1177421568, 1178433024, 1179443968, 1180457088, 1181469696, 1182484608, 1183500288, 1184515584, 1185533056, 1186550144, 1187569280, 1188589440, 1189609088, 1190630912, 1191652352, 1192675968, 1193700352, 1194724480, 1195750656, 1196776448, 1197804416, 1198833408, 1199861760, 1200892416]

/-- rows 5600 to 5699 of `kcorrect-lrg1-v4.fits` -/
def lrg1Units56 : List Nat :=
  [1201923968, 1202955008, 1203988352, 1205021184, 1206056320, 1207092352, 1208127872, 1209165568, 1210202880, 1211242368, 1212282880, 1213322880, 1214365056, 1215406848, 1216450816, 1217495680, 1218540160, 1219586816, 1220633088, 1221681536, 1222731008, 1223779968, 1224831104, 1225881856, 1226934912, 1227988736, 1229042176, 1230097920, 1231154560, 1232210688, 1233269120, 1234327168, 1235387392, 1236448512, 1237509248, 1238572288, 1239634816, 1240699648, 1241765376, 1242830592, 1243898240, 1244965248, 1246034688, 1247105024, 1248174848, 1249246976, 1250318720, 1251392640, 1252467584, 1253542016, 1254618752, 1255696512, 1256773760, 1257853312, 1258932352, 1260013696, 1261096064, 1262177920, 1263262080, 1264345728, 1265431808, 1266518784, 1267605248, 1268694144, 1269782528, 1270873216, 1271964928, 1273056000, 1274149632, 1275242624, 1276338048, 1277434368, 1278530304, 1279628416, 1280726272, 1281826304, 1282927360, 1284028032, 1285130880, 1286234880, 1287338240, 1288444032, 1289549312, 1290657024, 1291765632, 1292873856, 1293984384, 1295094528, 1296206976, 1297320320, 1298433280, 1299548544, 1300663424, 1301780608, 1302898816, 1304016512, 1305136640, 1306256384, 1307378304, 1308501376]

/-- rows 5700 to 5799 of `kcorrect-lrg1-v4.fits` -/
def lrg1Units57 : List Nat :=
  [1309623936, 1310748800, 1311874688, 1313000192, 1314128000, 1315255296, 1316385152, 1317515776, 1318646144, 1319778816, 1320910976, 1322045568, 1323181184, 1324316288, 1325453824, 1326590976, 1327730432, 1328870912, 1330010880, 1331153408, 1332295296, 1333439744, 1334585088, 1335730048, 1336877440, 1338025728, 1339173632, 1340323840, 1341473664, 1342626048, 1343779328, 1344932096, 1346087296, 1347242112, 1348399360, 1349557632, 1350715392, 1351875584, 1353035264, 1354197504, 1355360768, 1356523520, 1357688704, 1358853376, 1360020608, 1361188864, 1362356608, 1363526784, 1364697984, 1365868800, 1367042048, 1368214784, 1369390080, 1370566272, 1371742080, 1372920320, 1374098176, 1375278464, 1376459776, 1377640576, 1378823936, 1380006784, 1381192192, 1382378624, 1383564544, 1384752896, 1385940864, 1387131392, 1388322944, 1389513856, 1390707456, 1391902080, 1393096064, 1394292736, 1395488896, 1396687488, 1397887232, 1399086464, 1400288256, 1401489536, 1402693376, 1403898240, 1405102592, 1406309504, 1407516032, 1408724992, 1409935104, 1411144576, 1412356736, 1413568384, 1414782592, 1415997824, 1417212544, 1418429952, 1419646720, 1420866176, 1422086656, 1423306624, 1424529280, 1425752832]

/-- rows 5800 to 5899 of `kcorrect-lrg1-v4.fits` -/
def lrg1Units58 : List Nat :=
  [1426976000, 1428201728, 1429426944, 1430654720, 1431883648, 1433112064, 1434343040, 1435573504, 1436806656, 1438040832, 1439274496, 1440510720, 1441746560, 1442984960, 1444224384, 1445463424, 1446705024, 1447946112, 1449189888, 1450434688, 1451678976, 1452925952, 1454173952, 1455421440, 1456671616, 1457921280, 1459173504, 1460426880, 1461679744, 1462935296, 1464190336, 1465448064, 1466706816, 1467965056, 1469225984, 1470486400, 1471749504, 1473013760, 1474277376, 1475543680, 1476809600, 1478078080, 1479347712, 1480616832, 1481888640, 1483159936, 1484433920, 1485708928, 1486983552, 1488260864, 1489539200, 1490817024, 1492097536, 1493377664, 1494660352, 1495944320, 1497227648, 1498513664, 1499799168, 1501087488, 1502376832, 1503665664, 1504957312, 1506248448, 1507542272, 1508837120, 1510131584, 1511428736, 1512725376, 1514024704, 1515325184, 1516625152, 1517927936, 1519231744, 1520535040, 1521841152, 1523146752, 1524455040, 1525764480, 1527073408, 1528385152, 1529696256, 1531010304, 1532325376, 1533639936, 1534957312, 1536274048, 1537593728, 1538914432, 1540234624, 1541557632, 1542880128, 1544205440, 1545531776, 1546857728, 1548186368, 1549516288, 1550845568, 1552177664, 1553509248]

/-- rows 5900 to 5999 of `kcorrect-lrg1-v4.fits` -/
def lrg1Units59 : List Nat :=
  [1554843648, 1556179200, 1557514240, 1558852096, 1560189440, 1561529600, 1562870912, 1564211584, 1565555200, 1566898304, 1568244224, 1569591296, 1570937728, 1572287232, 1573637760, 1574987648, 1576340608, 1577692928, 1579048064, 1580404480, 1581760256, 1583118848, 1584477056, 1585838080, 1587200256, 1588561792, 1589926400, 1591290368, 1592657152, 1594025216, 1595392768, 1596763136, 1598132992, 1599505664, 1600879616, 1602252928, 1603629312, 1605004928, 1606383616, 1607763456, 1609142656, 1610524928, 1611908352, 1613291136, 1614676864, 1616062080, 1617450240, 1618839552, 1620228352, 1621620096, 1623011200, 1624405376, 1625800704, 1627195392, 1628593152, 1629990272, 1631390336, 1632791680, 1634192384, 1635596160, 1636999296, 1638405376, 1639812736, 1641219456, 1642629248, 1644038400, 1645450624, 1646864000, 1648276864, 1649692672, 1651109632, 1652526080, 1653945600, 1655364480, 1656786304, 1658209536, 1659632000, 1661057664, 1662482560, 1663910656, 1665339904, 1666768512, 1668200192, 1669631360, 1671065472, 1672500864, 1673935744, 1675373568, 1676812672, 1678251136, 1679692672, 1681133696, 1682577664, 1684023040, 1685467648, 1686915456, 1688362624, 1689812864, 1691264384, 1692715264]

/-- rows 6000 to 6099 of `kcorrect-lrg1-v4.fits` -/
def lrg1Units60 : List Nat :=
  [1694169216, 1695622656, 1697079168, 1698536832, 1699993984, 1701454208, 1702913920, 1704376576, 1705840640, 1707304064, 1708770560, 1710238336, 1711705472, 1713175808, 1714645504, 1716118400, 1717592448, 1719065984, 1720542592, 1722018560, 1723497728, 1724978176, 1726457984, 1727940992, 1729423360, 1730908800, 1732395648, 1733881856, 1735371136, 1736859904, 1738351872, 1739844992, 1741337600, 1742833280, 1744328448, 1745826816, 1747326464, 1748825344, 1750327552, 1751831040, 1753333888, 1754839936, 1756345472, 1757854080, 1759363968, 1760873344, 1762385920, 1763897728, 1765412864, 1766929280, 1768445184, 1769964160, 1771482624, 1773004288, 1774527232, 1776049536, 1777575168, 1779100032, 1780628224, 1782157696, 1783686656, 1785218688, 1786752256, 1788285056, 1789821056, 1791356544, 1792895232, 1794435328, 1795974656, 1797517440, 1799059456, 1800604800, 1802151424, 1803697408, 1805246848, 1806795520, 1808347392, 1809900800, 1811453440, 1813009408, 1814564736, 1816123392, 1817683456, 1819242752, 1820805376, 1822369408, 1823932800, 1825499520, 1827065600, 1828635008, 1830205696, 1831775744, 1833349248, 1834921984, 1836498176, 1838075648, 1839652480, 1841232768, 1842812288, 1844395136]

/-- rows 6100 to 6199 of `kcorrect-lrg1-v4.fits` -/
def lrg1Units61 : List Nat :=
  [1845979520, 1847563136, 1849150080, 1850736384, 1852326144, 1853917312, 1855507712, 1857101568, 1858694656, 1860291200, 1861889152, 1863486464, 1865087104, 1866689152, 1868290560, 1869895424, 1871499520, 1873107072, 1874716032, 1876324224, 1877936000, 1879547008, 1881161472, 1882777344, 1884392576, 1886011136, 1887629184, 1889250560, 1890873344, 1892495488, 1894121088, 1895748096, 1897374464, 1899004160, 1900633344, 1902265856, 1903899904, 1905533184, 1907170048, 1908806144, 1910445696, 1912086784, 1913727104, 1915370880, 1917014016, 1918660736, 1920308736, 1921956224, 1923607040, 1925257344, 1926910976, 1928566144, 1930220672, 1931878656, 1933536000, 1935196800, 1936859136, 1938520704, 1940185856, 1941852416, 1943518208, 1945187712, 1946856448, 1948528640, 1950202368, 1951875456, 1953552000, 1955227904, 1956907392, 1958588416, 1960268544, 1961952384, 1963635456, 1965322240, 1967010432, 1968697856, 1970388864, 1972079232, 1973773184, 1975468544, 1977163264, 1978861568, 1980561408, 1982260480, 1983963136, 1985665152, 1987370752, 1989077888, 1990784256, 1992494336, 1994203648, 1995916544, 1997630976, 1999344768, 2001062144, 2002778752, 2004499072, 2006220928, 2007942016, 2009666816]

/-- rows 6200 to 6299 of `kcorrect-lrg1-v4.fits` -/
def lrg1Units62 : List Nat :=
  [2011390848, 2013118464, 2014847744, 2016576256, 2018308352, 2020039808, 2021774976, 2023511680, 2025247616, 2026987264, 2028728320, 2030468736, 2032212864, 2033956224, 2035703296, 2037451904, 2039199872, 2040951424, 2042702336, 2044456960, 2046213120, 2047968512, 2049727616, 2051485952, 2053248128, 2055011840, 2056774784, 2058541568, 2060307456, 2062077184, 2063848448, 2065619072, 2067393280, 2069169152, 2070944256, 2072723072, 2074501248, 2076283136, 2078066688, 2079849344, 2081635968, 2083421696, 2085211264, 2087002496, 2088792832, 2090587008, 2092380544, 2094177792, 2095976576, 2097774720, 2099576576, 2101377792, 2103182848, 2104989440, 2106795264, 2108604928, 2110416128, 2112226560, 2114040960, 2115854464, 2117671936, 2119490944, 2121309312, 2123131392, 2124952832, 2126778112, 2128604928, 2130430976, 2132260992, 2134090112, 2135923328, 2137757952, 2139591936, 2141429760, 2143266816, 2145107840, 2146950400, 2148792320, 2150638080, 2152483072, 2154331904, 2156182272, 2158032128, 2159885824, 2161741056, 2163595520, 2165454080, 2167311872, 2169173504, 2171036672, 2172899072, 2174765568, 2176631296, 2178500864, 2180372224, 2182242816, 2184117248, 2185990912, 2187868672, 2189747968]

/-- rows 6300 to 6399 of `kcorrect-lrg1-v4.fits` -/
def lrg1Units63 : List Nat :=
  [2191626496, 2193508864, 2195393024, 2197276416, 2199163904, 2201050624, 2202941184, 2204833280, 2206724864, 2208620288, 2210515200, 2212413952, 2214314240, 2216213760, 2218117632, 2220020480, 2221927424, 2223835904, 2225743616, 2227655424, 2229566464, 2231481600, 2233398528, 2235314432, 2237234432, 2239153920, 2241077248, 2243002112, 2244926464, 2246854656, 2248784640, 2250713856, 2252647168, 2254579712, 2256516352, 2258454528, 2260391936, 2262333696, 2264274432, 2266219520, 2268166144, 2270111744, 2272061696, 2274010880, 2275964160, 2277919232, 2279873280, 2281831680, 2283789312, 2285751040, 2287714304, 2289677056, 2291643648, 2293612288, 2295579904, 2297551616, 2299522560, 2301497856, 2303474688, 2305450752, 2307431168, 2309410560, 2311394304, 2313379840, 2315364352, 2317353216, 2319341312, 2321333504, 2323327488, 2325320448, 2327318016, 2329314560, 2331315200, 2333317888, 2335319552, 2337325568, 2339330560, 2341340160, 2343351296, 2345361408, 2347376128, 2349392384, 2351407872, 2353427712, 2355446528, 2357469952, 2359494912, 2361519104, 2363547648, 2365575168, 2367607040, 2369640704, 2371673600, 2373710848, 2375747328, 2377787904, 2379830272, 2381871872, 2383917824, 2385963008]

/-- rows 6400 to 6499 of `kcorrect-lrg1-v4.fits` -/
def lrg1Units64 : List Nat :=
  [2388012544, 2390063616, 2392114176, 2394168832, 2396225280, 2398280960, 2400340992, 2402400256, 2404463872, 2406529280, 2408593664, 2410662656, 2412730624, 2414803200, 2416877312, 2418950912, 2421028608, 2423105536, 2425186816, 2427270144, 2429352448, 2431439104, 2433524992, 2435615232, 2437707520, 2439798784, 2441894400, 2443991808, 2446088448, 2448189696, 2450289920, 2452394752, 2454501120, 2456606720, 2458716928, 2460826368, 2462940160, 2465055744, 2467170304, 2469289472, 2471407872, 2473530880, 2475655424, 2477779200, 2479907584, 2482037760, 2484167168, 2486300928, 2488433920, 2490571264, 2492710656, 2494849024, 2496992000, 2499134208, 2501280768, 2503429376, 2505576960, 2507729152, 2509880576, 2512036608, 2514194176, 2516351232, 2518512640, 2520673024, 2522838272, 2525005312, 2527171584, 2529342208, 2531512064, 2533686528, 2535863040, 2538038528, 2540218624, 2542400512, 2544581632, 2546767360, 2548952064, 2551141632, 2553332992, 2555523328, 2557718528, 2559912704, 2562111488, 2564312320, 2566512128, 2568716800, 2570920448, 2573128704, 2575339008, 2577548288, 2579762432, 2581975552, 2584193280, 2586413056, 2588631808, 2590855424, 2593080832, 2595305472, 2597534720, 2599763200]

/-- rows 6500 to 6599 of `kcorrect-lrg1-v4.fits` -/
def lrg1Units65 : List Nat :=
  [2601996288, 2604231168, 2606465280, 2608704256, 2610942208, 2613185024, 2615429632, 2617673216, 2619921920, 2622169344, 2624421632, 2626675968, 2628929280, 2631187456, 2633444864, 2635706880, 2637970944, 2640233984, 2642501888, 2644768768, 2647040512, 2649314304, 2651587072, 2653864704, 2656144128, 2658422784, 2660706304, 2662988800, 2665276416, 2667565824, 2669854208, 2672147456, 2674439936, 2676737024, 2679036416, 2681334784, 2683637760, 2685939968, 2688247296, 2690556416, 2692864512, 2695177728, 2697489664, 2699806720, 2702125824, 2704443904, 2706766848, 2709092096, 2711416064, 2713745152, 2716073216, 2718406144, 2720741120, 2723075328, 2725414400, 2727752448, 2730095360, 2732440576, 2734784512, 2737133824, 2739481856, 2741835008, 2744190208, 2746544384, 2748903424, 2751261696, 2753624832, 2755990272, 2758354432, 2760723968, 2763095296, 2765465600, 2767841024, 2770215680, 2772595200, 2774976768, 2777357312, 2779742976, 2782127616, 2784517376, 2786909184, 2789299968, 2791695872, 2794090752, 2796491008, 2798893056, 2801294080, 2803700224, 2806105600, 2808515840, 2810928384, 2813339648, 2815756288, 2818171904, 2820592640, 2823015424, 2825437184, 2827864320, 2830290176, 2832721408]

/-- rows 6600 to 6699 of `kcorrect-lrg1-v4.fits` -/
def lrg1Units66 : List Nat :=
  [2835154432, 2837586688, 2840024064, 2842463744, 2844902144, 2847345920, 2849788416, 2852236288, 2854686464, 2857135360, 2859589376, 2862042624, 2864500992, 2866961664, 2869421056, 2871885824, 2874349568, 2876818432, 2879289600, 2881759744, 2884235008, 2886712576, 2889188864, 2891670784, 2894151424, 2896637440, 2899125504, 2901612544, 2904104960, 2906596352, 2909093120, 2911591936, 2914089728, 2916592896, 2919094784, 2921602304, 2924111872, 2926620416, 2929134336, 2931646976, 2934165248, 2936685568, 2939204864, 2941729536, 2944256512, 2946782208, 2949313536, 2951843584, 2954379264, 2956916992, 2959453696, 2961995776, 2964536576, 2967083008, 2969631744, 2972179456, 2974732288, 2977284352, 2979841792, 2982401280, 2984959744, 2987523840, 2990086656, 2992655104, 2995225856, 2997795328, 3000370176, 3002944256, 3005523712, 3008105216, 3010685952, 3013272064, 3015860224, 3018447616, 3021040384, 3023631872, 3026229248, 3028828672, 3031427072, 3034030848, 3036633600, 3039241984, 3041852672, 3044462336, 3047077376, 3049691392, 3052311040, 3054932736, 3057553664, 3060179968, 3062805248, 3065435904, 3068069120, 3070701056, 3073338880, 3075978752, 3078617600, 3081261824, 3083905280, 3086554368]

/-- rows 6700 to 6799 of `kcorrect-lrg1-v4.fits` -/
def lrg1Units67 : List Nat :=
  [3089205504, 3091855616, 3094511616, 3097166080, 3099826688, 3102489344, 3105150720, 3107817984, 3110484224, 3113155840, 3115830016, 3118503168, 3121181696, 3123859456, 3126542592, 3129228288, 3131912704, 3134603008, 3137295616, 3139986944, 3142684160, 3145380096, 3148081920, 3150786048, 3153488896, 3156197632, 3158905344, 3161618688, 3164334592, 3167049216, 3169769472, 3172488704, 3175213824, 3177941248, 3180667648, 3183399680, 3186130688, 3188867328, 3191606528, 3194344448, 3197088256, 3199834624, 3202579712, 3205330432, 3208080384, 3210835968, 3213594112, 3216350976, 3219113728, 3221875200, 3224642816, 3227412480, 3230181376, 3232955904, 3235729408, 3238508800, 3241290496, 3244071168, 3246857728, 3249643264, 3252434432, 3255228160, 3258020864, 3260819456, 3263620352, 3266420224, 3269225984, 3272030464, 3274841088, 3277654016, 3280465920, 3283283712, 3286100224, 3288922880, 3291748096, 3294572032, 3297401856, 3300230656, 3303065344, 3305902592, 3308738816, 3311580928, 3314421760, 3317268736, 3320118272, 3322966528, 3325820672, 3328677632, 3331533056, 3334394880, 3337255424, 3340121856, 3342991104, 3345858816, 3348732928, 3351605760, 3354484480, 3357366016, 3360246272, 3363132672]

/-- rows 6800 to 6899 of `kcorrect-lrg1-v4.fits` -/
def lrg1Units68 : List Nat :=
  [3366017792, 3368909056, 3371802880, 3374695424, 3377594112, 3380491776, 3383395584, 3386301696, 3389206784, 3392118016, 3395027968, 3397944320, 3400862976, 3403780352, 3406704128, 3409630464, 3412555520, 3415486720, 3418416896, 3421353216, 3424292096, 3427229696, 3430173440, 3433116160, 3436065024, 3439016704, 3441966848, 3444923392, 3447878656, 3450840320, 3453804544, 3456767488, 3459736576, 3462704640, 3465679104, 3468655872, 3471631616, 3474613760, 3477598208, 3480581632, 3483571456, 3486559744, 3489554688, 3492552192, 3495548160, 3498550784, 3501552128, 3504559872, 3507570176, 3510579200, 3513594624, 3516609024, 3519629568, 3522652928, 3525675008, 3528703232, 3531730432, 3534764288, 3537800448, 3540835328, 3543876864, 3546920960, 3549963776, 3553013248, 3556061184, 3559115776, 3562172928, 3565228800, 3568291328, 3571352320, 3574419968, 3577490432, 3580559360, 3583634944, 3586709248, 3589790208, 3592873728, 3595955968, 3599044864, 3602132224, 3605226496, 3608323328, 3611418624, 3614520832, 3617621504, 3620729088, 3623839232, 3626947840, 3630063360, 3633181440, 3636298240, 3639421696, 3642543872, 3645672704, 3648804352, 3651934464, 3655071488, 3658206976, 3661349376, 3664494336]

/-- rows 6900 to 6999 of `kcorrect-lrg1-v4.fits` -/
def lrg1Units69 : List Nat :=
  [3667638016, 3670788352, 3673937408, 3677093376, 3680251904, 3683408896, 3686573056, 3689735680, 3692904960, 3696077056, 3699247872, 3702425344, 3705605632, 3708784640, 3711970304, 3715154688, 3718345984, 3721539840, 3724732416, 3727931904, 3731130112, 3734334976, 3737542656, 3740749056, 3743962112, 3747174144, 3750392832, 3753614336, 3756834304, 3760061440, 3763287040, 3766519552, 3769754880, 3772988928, 3776229888, 3779469312, 3782715648, 3785965056, 3789212928, 3792467712, 3795725312, 3798981632, 3802244864, 3805506560, 3808775424, 3812047104, 3815317248, 3818594560, 3821870592, 3825153280, 3828439040, 3831723264, 3835014656, 3838304768, 3841601792, 3844901376, 3848199936, 3851505408, 3854809600, 3858120704, 3861434624, 3864747264, 3868067072, 3871389696, 3874710784, 3878039040, 3881366016, 3884699904, 3888036864, 3891372288, 3894714880, 3898055936, 3901404160, 3904755456, 3908105216, 3911462144, 3914817792, 3918180352, 3921545984, 3924910336, 3928281600, 3931651584, 3935028736, 3938408960, 3941787392, 3945173504, 3948562176, 3951949568, 3955344128, 3958737408, 3962137856, 3965541120, 3968943104, 3972352256, 3975760128, 3979175168, 3982593024, 3986009600, 3989433600, 3992856064]

/-- rows 7000 to 7099 of `kcorrect-lrg1-v4.fits` -/
def lrg1Units70 : List Nat :=
  [3996285696, 3999718400, 4003149824, 4006588416, 4010025472, 4013469952, 4016917504, 4020363520, 4023816704, 4027268608, 4030727936, 4034190336, 4037651200, 4041119232, 4044590592, 4048060416, 4051537408, 4055013120, 4058496256, 4061982464, 4065467136, 4068959232, 4072449792, 4075948032, 4079449088, 4082948864, 4086455808, 4089961472, 4093474816, 4096990976, 4100505600, 4104027904, 4107553024, 4111076864, 4114608128, 4118137856, 4121675264, 4125215744, 4128754688, 4132301056, 4135846144, 4139398656, 4142954240, 4146508544, 4150070272, 4153630464, 4157198336, 4160769280, 4164338688, 4167915520, 4171491072, 4175074304, 4178660608, 4182245376, 4185837824, 4189428736, 4193027328, 4196628992, 4200229120, 4203837184, 4207448064, 4211057664, 4214674688, 4218290432, 4221913856, 4225540352, 4229165312, 4232797952, 4236429312, 4240068096, 4243710208, 4247350784, 4250999296, 4254646016, 4258300672, 4261958400, 4265614592, 4269278720, 4272945920, 4276611584, 4280284928, 4283956992, 4287636736, 4291319552, 4295001088, 4298690560, 4302377984, 4306073600, 4309772288, 4313469952, 4317174784, 4320878592, 4324590080, 4328304640, 4332017664, 4335738880, 4339458560, 4343185920, 4346916352, 4350645760]

/-- rows 7100 to 7199 of `kcorrect-lrg1-v4.fits` -/
def lrg1Units71 : List Nat :=
  [4354382848, 4358118400, 4361861632, 4365608448, 4369353728, 4373106688, 4376858112, 4380617728, 4384380928, 4388142080, 4391911424, 4395683840, 4399454720, 4403233792, 4407011328, 4410796544, 4414585344, 4418372608, 4422168064, 4425961472, 4429763072, 4433568256, 4437371904, 4441183232, 4444993536, 4448811520, 4452633088, 4456452608, 4460280832, 4464112128, 4467941376, 4471779328, 4475615744, 4479459840, 4483307520, 4487153664, 4491008000, 4494860800, 4498721792, 4502586368, 4506448896, 4510319616, 4514188800, 4518066688, 4521947648, 4525826560, 4529714176, 4533600256, 4537494528, 4541391872, 4545287680, 4549192192, 4553094656, 4557005824, 4560920064, 4564832768, 4568753664, 4572678144, 4576601088, 4580532224, 4584461824, 4588399616, 4592340992, 4596280832, 4600228864, 4604175360, 4608130048, 4612088320, 4616045056, 4620009984, 4623973376, 4627944960, 4631920640, 4635894272, 4639876096, 4643856384, 4647845376, 4651837952, 4655828480, 4659827712, 4663830528, 4667831296, 4671840768, 4675848704, 4679865344, 4683885056, 4687903232, 4691930112, 4695954944, 4699988992, 4704026112, 4708061696, 4712105472, 4716147712, 4720199168, 4724253696, 4728306176, 4732367872, 4736427520, 4740495872]

/-- rows 7200 to 7299 of `kcorrect-lrg1-v4.fits` -/
def lrg1Units72 : List Nat :=
  [4744567808, 4748638208, 4752717312, 4756794368, 4760880128, 4764969984, 4769057792, 4773153792, 4777253888, 4781352448, 4785459200, 4789564416, 4793678848, 4797796352, 4801912320, 4806036992, 4810160128, 4814291968, 4818426880, 4822560768, 4826703360, 4830843904, 4834993664, 4839146496, 4843297792, 4847458304, 4851616768, 4855783936, 4859955200, 4864124416, 4868302336, 4872484352, 4876664320, 4880852992, 4885040128, 4889236480, 4893435904, 4897633792, 4901840896, 4906045952, 4910260224, 4914478080, 4918693888, 4922918912, 4927142400, 4931374592, 4935610368, 4939844608, 4944087552, 4948334592, 4952579584, 4956833792, 4961085952, 4965347328, 4969612800, 4973875712, 4978148352, 4982418944, 4986698752, 4990982144, 4995264000, 4999554560, 5003843584, 5008141824, 5012443648, 5016743424, 5021052928, 5025360384, 5029677056, 5033997312, 5038316032, 5042643456, 5046974976, 5051304960, 5055643648, 5059980800, 5064327168, 5068677120, 5073025536, 5077383168, 5081738752, 5086104064, 5090472960, 5094839808, 5099215872, 5103590400, 5107974656, 5112361984, 5116747776, 5121142784, 5125536256, 5129938944, 5134345216, 5138749952, 5143163904, 5147576320, 5151997952, 5156423168, 5160846848, 5165279744]

/-- rows 7300 to 7399 of `kcorrect-lrg1-v4.fits` -/
def lrg1Units73 : List Nat :=
  [5169716736, 5174151680, 5178595840, 5183038464, 5187490816, 5191946752, 5196400640, 5200864256, 5205325824, 5209797120, 5214272000, 5218745344, 5223228416, 5227708928, 5232199680, 5236694016, 5241186304, 5245688320, 5250193920, 5254697984, 5259211776, 5263723520, 5268244992, 5272770048, 5277293568, 5281826816, 5286357504, 5290898432, 5295443456, 5299985920, 5304538624, 5309089280, 5313649664, 5318214144, 5322776064, 5327348224, 5331918336, 5336498688, 5341082624, 5345664512, 5350256128, 5354846208, 5359445504, 5364049408, 5368650752, 5373262336, 5377871872, 5382491648, 5387115008, 5391736320, 5396367872, 5401003008, 5405636608, 5410279936, 5414921216, 5419572224, 5424227840, 5428880896, 5433544192, 5438205440, 5442876928, 5447552000, 5452225536, 5456908800, 5461590016, 5466281472, 5470976512, 5475670016, 5480373760, 5485081088, 5489786368, 5494501888, 5499215872, 5503939584, 5508666880, 5513392640, 5518128640, 5522862592, 5527606272, 5532354560, 5537100800, 5541856768, 5546611200, 5551375360, 5556144128, 5560910336, 5565686784, 5570461696, 5575246336, 5580035584, 5584822272, 5589619712, 5594415104, 5599220224, 5604029952, 5608837632, 5613655040, 5618477056, 5623297024, 5628127232]

/-- rows 7400 to 7499 of `kcorrect-lrg1-v4.fits` -/
def lrg1Units74 : List Nat :=
  [5632955904, 5637794304, 5642636800, 5647477760, 5652328448, 5657177600, 5662036992, 5666900480, 5671761920, 5676634112, 5681503744, 5686384128, 5691268608, 5696150528, 5701043712, 5705934336, 5710835712, 5715741184, 5720644608, 5725558272, 5730476544, 5735392256, 5740319232, 5745243648, 5750178304, 5755117568, 5760054784, 5765002752, 5769948160, 5774904320, 5779865088, 5784823296, 5789792256, 5794759168, 5799736832, 5804718592, 5809698304, 5814688768, 5819676672, 5824675840, 5829679104, 5834680320, 5839692288, 5844701696, 5849722368, 5854747136, 5859769344, 5864802816, 5869840384, 5874876416, 5879922688, 5884966912, 5890021888, 5895080960, 5900138496, 5905206272, 5910272512, 5915348992, 5920430080, 5925509120, 5930598912, 5935686656, 5940785152, 5945888256, 5950989312, 5956101120, 5961217024, 5966330880, 5971456000, 5976578560, 5981712384, 5986850304, 5991986688, 5997133312, 6002278400, 6007433728, 6012594176, 6017752064, 6022921216, 6028088320, 6033266176, 6038448640, 6043628544, 6048820224, 6054009344, 6059209216, 6064414208, 6069616640, 6074830336, 6080048128, 6085264384, 6090491392, 6095716352, 6100952064, 6106192896, 6111431168, 6116680704, 6121928192, 6127186432, 6132449792]

/-- rows 7500 to 7599 of `kcorrect-lrg1-v4.fits` -/
def lrg1Units75 : List Nat :=
  [6137710592, 6142982656, 6148252672, 6153533952, 6158819328, 6164103168, 6169397760, 6174690304, 6179994112, 6185302528, 6190608896, 6195926528, 6201248256, 6206568448, 6211899904, 6217228800, 6222568960, 6227907072, 6233256960, 6238610944, 6243962880, 6249326592, 6254694400, 6260060160, 6265437184, 6270812160, 6276198912, 6281589760, 6286978560, 6292379136, 6297777152, 6303186432, 6308600832, 6314012672, 6319436288, 6324857856, 6330290688, 6335728128, 6341163520, 6346610176, 6352061952, 6357511168, 6362972160, 6368430592, 6373900800, 6379376128, 6384848896, 6390332928, 6395814912, 6401309184, 6406807552, 6412303872, 6417811968, 6423317504, 6428834816, 6434357248, 6439877120, 6445408768, 6450937856, 6456479232, 6462025216, 6467568640, 6473123840, 6478676992, 6484242432, 6489811968, 6495379456, 6500958720, 6506543104, 6512124928, 6517718528, 6523309568, 6528912896, 6534521344, 6540127232, 6545744896, 6551360512, 6556987904, 6562619904, 6568249856, 6573891584, 6579531264, 6585183232, 6590839296, 6596493824, 6602159616, 6607823872, 6613499392, 6619180544, 6624858624, 6630549504, 6636244992, 6641937920, 6647643136, 6653345792, 6659061248, 6664780800, 6670498304, 6676228096, 6681955840]

/-- rows 7600 to 7699 of `kcorrect-lrg1-v4.fits` -/
def lrg1Units76 : List Nat :=
  [6687695360, 6693440000, 6699182080, 6704936448, 6710688256, 6716452352, 6722221568, 6727988736, 6733767680, 6739544576, 6745333760, 6751127552, 6756919296, 6762723328, 6768532480, 6774338560, 6780157952, 6785974272, 6791803392, 6797637120, 6803468800, 6809312768, 6815154176, 6821008384, 6826867200, 6832723968, 6838593024, 6844459520, 6850338816, 6856223232, 6862105088, 6867999232, 6873891328, 6879795712, 6885705216, 6891612160, 6897531904, 6903456768, 6909379072, 6915313664, 6921246208, 6927191552, 6933142016, 6939089408, 6945050112, 6951008256, 6956978688, 6962954752, 6968927744, 6974914048, 6980897792, 6986893824, 6992895488, 6998894592, 7004906496, 7010915840, 7016937984, 7022965248, 7028989952, 7035027968, 7041070592, 7047111168, 7053164544, 7059214848, 7065278464, 7071347712, 7077413888, 7083493376, 7089569792, 7095659520, 7101754880, 7107847168, 7113952256, 7120055296, 7126171136, 7132292608, 7138411008, 7144542720, 7150671872, 7156814336, 7162961408, 7169106432, 7175264768, 7181427712, 7187588608, 7193762816, 7199933952, 7206118400, 7212300288, 7218495488, 7224696320, 7230894080, 7237105152, 7243321344, 7249535488, 7255762432, 7261987328, 7268225024, 7274468352, 7280708608]

/-- rows 7700 to 7799 of `kcorrect-lrg1-v4.fits` -/
def lrg1Units77 : List Nat :=
  [7286962688, 7293213696, 7299478528, 7305748480, 7312015872, 7318297088, 7324575232, 7330866688, 7337163776, 7343457792, 7349765632, 7356079104, 7362389504, 7368713728, 7375034880, 7381369856, 7387710464, 7394048000, 7400399360, 7406748160, 7413110272, 7419478016, 7425842688, 7432221696, 7438597632, 7444986880, 7451381760, 7457774080, 7464180224, 7470583808, 7477000704, 7483423232, 7489843200, 7496276480, 7502715904, 7509152256, 7515602432, 7522049536, 7528510976, 7534977536, 7541441536, 7547919360, 7554394624, 7560883712, 7567378432, 7573870080, 7580376064, 7586878976, 7593395712, 7599918592, 7606437888, 7612972032, 7619502592, 7626048000, 7632598528, 7639145984, 7645707776, 7652267008, 7658840064, 7665418752, 7671994880, 7678584832, 7685180416, 7691773440, 7698380288, 7704984576, 7711603200, 7718226944, 7724848128, 7731483648, 7738116608, 7744763392, 7751415808, 7758065664, 7764729344, 7771390464, 7778065920, 7784747008, 7791425536, 7798117888, 7804816384, 7811511808, 7818222080, 7824928768, 7831650304, 7838377472, 7845101568, 7851840512, 7858576384, 7865326592, 7872082944, 7878836224, 7885603840, 7892368384, 7899147776, 7905932800, 7912715264, 7919512064, 7926306304, 7933114368]

/-- rows 7800 to 7899 of `kcorrect-lrg1-v4.fits` -/
def lrg1Units78 : List Nat :=
  [7939929088, 7946740224, 7953566208, 7960389632, 7967227392, 7974070784, 7980911616, 7987766784, 7994628096, 8001486848, 8008359424, 8015229952, 8022114816, 8029005312, 8035893248, 8042796032, 8049695744, 8056610304, 8063530496, 8070448128, 8077380096, 8084309504, 8091253760, 8098204160, 8105150976, 8112113152, 8119072256, 8126046720, 8133026816, 8140003840, 8146995712, 8153985024, 8160988672, 8167998976, 8175006208, 8182028288, 8189056512, 8196081664, 8203121664, 8210159104, 8217211392, 8224269312, 8231324672, 8238395392, 8245463040, 8252545536, 8259634176, 8266719744, 8273820672, 8280918528, 8288031744, 8295151104, 8302266880, 8309398528, 8316536320, 8323670528, 8330820608, 8337967104, 8345129472, 8352297472, 8359462912, 8366643200, 8373820928, 8381013504, 8388212736, 8395408896, 8402620416, 8409828352, 8417052160, 8424282624, 8431509504, 8438751744, 8445990912, 8453245952, 8460507136, 8467765248, 8475038720, 8482309120, 8489595392, 8496887808, 8504176640, 8511481856, 8518792704, 8526100992, 8533424640, 8540745216, 8548081664, 8555423744, 8562763264, 8570118656, 8577470464, 8584838656, 8592212992, 8599583744, 8606970880, 8614353920, 8621753344, 8629159936, 8636562432, 8643980288]

/-- rows 7900 to 7999 of `kcorrect-lrg1-v4.fits` -/
def lrg1Units79 : List Nat :=
  [8651405312, 8658827264, 8666265600, 8673699840, 8681150464, 8688598016, 8696060928, 8703531008, 8710996992, 8718479360, 8725968896, 8733454336, 8740956160, 8748454912, 8755969024, 8763490304, 8771008512, 8778542080, 8786073600, 8793620480, 8801173504, 8808724480, 8816290816, 8823854080, 8831433728, 8839019520, 8846602240, 8854201344, 8861796352, 8869408768, 8877027328, 8884642816, 8892274688, 8899912704, 8907547648, 8915198976, 8922847232, 8930511872, 8938182656, 8945850368, 8953534464, 8961215488, 8968912896, 8976617472, 8984317952, 8992034816, 8999749632, 9007479808, 9015217152, 9022950400, 9030701056, 9038458880, 9046212608, 9053982720, 9061749760, 9069533184, 9077323776, 9085111296, 9092915200, 9100716032, 9108533248, 9116356608, 9124177920, 9132014592, 9139849216, 9147700224, 9155557376, 9163411456, 9171282944, 9179151360, 9187035136, 9194927104, 9202814976, 9210720256, 9218621440, 9226540032, 9234465792, 9242387456, 9250326528, 9258271744, 9266214912, 9274174464, 9282129920, 9290102784, 9298082816, 9306059776, 9314053120, 9322043392, 9330051072, 9338064896, 9346075648, 9354103808, 9362128896, 9370170368, 9378219008, 9386264576, 9394327552, 9402396672, 9410462720, 9418546176]

/-- rows 8000 to 8099 of `kcorrect-lrg1-v4.fits` -/
def lrg1Units80 : List Nat :=
  [9426625536, 9434723328, 9442827264, 9450928128, 9459046400, 9467160576, 9475293184, 9483431936, 9491567616, 9499720704, 9507869696, 9516037120, 9524210688, 9532381184, 9540569088, 9548753920, 9556956160, 9565165568, 9573370880, 9581594624, 9589814272, 9598051328, 9606295552, 9614536704, 9622795264, 9631050752, 9639323648, 9647603712, 9655879680, 9664174080, 9672475648, 9680773120, 9689088000, 9697400832, 9705730048, 9714067456, 9722400768, 9730751488, 9739100160, 9747465216, 9755838464, 9764207616, 9772594176, 9780978688, 9789379584, 9797788672, 9806193664, 9814617088, 9823047680, 9831474176, 9839919104, 9848360960, 9856820224, 9865286656, 9873750016, 9882231808, 9890709504, 9899204608, 9907707904, 9916208128, 9924725760, 9933239296, 9941772288, 9950311424, 9958847488, 9967401984, 9975953408, 9984522240, 9993098240, 10001671168, 10010262528, 10018849792, 10027455488, 10036069376, 10044679168, 10053307392, 10061942784, 10070574080, 10079224832, 10087871488, 10096536576, 10105208832, 10113878016, 10122565632, 10131249152, 10139952128, 10148662272, 10157368320, 10166092800, 10174814208, 10183554048, 10192302080, 10201044992, 10209807360, 10218566656, 10227344384, 10236129280, 10244910080, 10253710336, 10262517760]

/-- rows 8100 to 8199 of `kcorrect-lrg1-v4.fits` -/
def lrg1Units81 : List Nat :=
  [10271322112, 10280144896, 10288963584, 10297801728, 10306647040, 10315489280, 10324349952, 10333206528, 10342082560, 10350965760, 10359845888, 10368744448, 10377639936, 10386553856, 10395475968, 10404393984, 10413330432, 10422276096, 10431216640, 10440176640, 10449133568, 10458108928, 10467091456, 10476070912, 10485069824, 10494064640, 10503078912, 10512100352, 10521118720, 10530156544, 10539189248, 10548242432, 10557302784, 10566360064, 10575435776, 10584508416, 10593600512, 10602699776, 10611795968, 10620910592, 10630022144, 10639153152, 10648292352, 10657426432, 10666580992, 10675731456, 10684902400, 10694080512, 10703254528, 10712448000, 10721649664, 10730847232, 10740065280, 10749278208, 10758511616, 10767753216, 10776990720, 10786247680, 10795500544, 10804773888, 10814055424, 10823331840, 10832628736, 10841921536, 10851234816, 10860556288, 10869872640, 10879209472, 10888542208, 10897895424, 10907256832, 10916614144, 10925990912, 10935375872, 10944756736, 10954158080, 10963555328, 10972973056, 10982397952, 10991819776, 11001262080, 11010699264, 11020156928, 11029622784, 11039085568, 11048567808, 11058045952, 11067544576, 11077051392, 11086554112, 11096076288, 11105595392, 11115134976, 11124682752, 11134226432, 11143790592, 11153362944, 11162930176, 11172518912, 11182103552]

/-- rows 8200 to 8299 of `kcorrect-lrg1-v4.fits` -/
def lrg1Units82 : List Nat :=
  [11191708672, 11201321984, 11210931200, 11220561920, 11230187520, 11239833600, 11249488896, 11259139072, 11268810752, 11278477312, 11288165376, 11297861632, 11307553792, 11317266432, 11326976000, 11336705024, 11346443264, 11356176384, 11365931008, 11375694848, 11385453568, 11395232768, 11405008896, 11414805504, 11424610304, 11434411008, 11444233216, 11454050304, 11463889920, 11473736704, 11483579392, 11493443584, 11503303680, 11513184256, 11523074048, 11532959744, 11542865920, 11552768000, 11562691584, 11572623360, 11582552064, 11592501248, 11602458624, 11612411904, 11622386688, 11632357376, 11642348544, 11652348928, 11662345216, 11672363008, 11682376704, 11692411904, 11702455296, 11712494592, 11722555392, 11732611072, 11742689280, 11752775680, 11762857984, 11772962816, 11783062528, 11793183744, 11803313152, 11813439488, 11823586304, 11833730048, 11843894272, 11854067712, 11864237056, 11874428928, 11884627968, 11894823936, 11905041408, 11915253760, 11925488640, 11935732736, 11945971712, 11956233216, 11966490624, 11976769536, 11987056640, 11997339648, 12007645184, 12017946624, 12028269568, 12038601728, 12048928768, 12059278336, 12069637120, 12079991808, 12090368000, 12100740096, 12111133696, 12121537536, 12131936256, 12142357504, 12152773632, 12163212288, 12173660160, 12184103936]

/-- rows 8300 to 8399 of `kcorrect-lrg1-v4.fits` -/
def lrg1Units83 : List Nat :=
  [12194569216, 12205031424, 12215515136, 12226008064, 12236495872, 12247007232, 12257513472, 12268042240, 12278580224, 12289113088, 12299669504, 12310220800, 12320794624, 12331378688, 12341956608, 12352558080, 12363168768, 12373775360, 12384403456, 12395028480, 12405675008, 12416330752, 12426982400, 12437657600, 12448326656, 12459020288, 12469722112, 12480418816, 12491139072, 12501855232, 12512593920, 12523341824, 12534085632, 12544851968, 12555614208, 12566398976, 12577192960, 12587982848, 12598795264, 12609616896, 12620434432, 12631275520, 12642111488, 12652971008, 12663838720, 12674703360, 12685590528, 12696472576, 12707379200, 12718294016, 12729204736, 12740139008, 12751068160, 12762020864, 12772983808, 12783940608, 12794921984, 12805898240, 12816898048, 12827908096, 12838912000, 12849940480, 12860963840, 12872011776, 12883067904, 12894119936, 12905195520, 12916281344, 12927362048, 12938466304, 12949565440, 12960689152, 12971822080, 12982949888, 12994102272, 13005249536, 13016420352, 13027601408, 13038777344, 13049976832, 13061172224, 13072391168, 13083620352, 13094844416, 13106092032, 13117335552, 13128602624, 13139879936, 13151152128, 13162448896, 13173754880, 13185056768, 13196382208, 13207702528, 13219048448, 13230402560, 13241752576, 13253127168, 13264496640, 13275890688]

/-- rows 8400 to 8499 of `kcorrect-lrg1-v4.fits` -/
def lrg1Units84 : List Nat :=
  [13287293952, 13298693120, 13310115840, 13321534464, 13332977664, 13344430080, 13355877376, 13367350272, 13378818048, 13390309376, 13401811968, 13413308416, 13424830464, 13436361728, 13447888896, 13459439616, 13470986240, 13482557440, 13494138880, 13505715200, 13517316096, 13528911872, 13540533248, 13552163840, 13563790336, 13575441408, 13587087360, 13598757888, 13610438656, 13622115328, 13633815552, 13645511680, 13657233408, 13668964352, 13680690176, 13692441600, 13704203264, 13715959808, 13727740928, 13739517952, 13751319552, 13763131392, 13774939136, 13786771456, 13798598656, 13810451456, 13822313472, 13834171392, 13846054912, 13857933312, 13869836288, 13881750528, 13893659648, 13905593344, 13917522944, 13929477120, 13941442560, 13953402880, 13965387776, 13977368576, 13989374976, 14001391616, 14013403136, 14025440256, 14037487616, 14049529856, 14061597696, 14073660416, 14085749760, 14097849344, 14109942784, 14122062848, 14134177792, 14146319360, 14158470144, 14170616832, 14182788096, 14194955264, 14207149056, 14219352064, 14231550976, 14243775488, 14255994880, 14268239872, 14280496128, 14292747264, 14305024000, 14317312000, 14329593856, 14341902336, 14354206720, 14366535680, 14378876928, 14391212032, 14403573760, 14415930368, 14428312576, 14440706048, 14453094400, 14465509376]

/-- rows 8500 to 8599 of `kcorrect-lrg1-v4.fits` -/
def lrg1Units85 : List Nat :=
  [14477919232, 14490354688, 14502801408, 14515243008, 14527711232, 14540174336, 14552664064, 14565164032, 14577659904, 14590181376, 14602714112, 14615240704, 14627794944, 14640344064, 14652919808, 14665505792, 14678087680, 14690695168, 14703298560, 14715927552, 14728568832, 14741203968, 14753865728, 14766522368, 14779206656, 14791902208, 14804591616, 14817307648, 14830019584, 14842758144, 14855507968, 14868251648, 14881022976, 14893805568, 14906582016, 14919387136, 14932186112, 14945011712, 14957849600, 14970681344, 14983540736, 14996395008, 15009275904, 15022169088, 15035056128, 15047970816, 15060879360, 15073816576, 15086765056, 15099707392, 15112677376, 15125642240, 15138634752, 15151638528, 15164636160, 15177662464, 15190682624, 15203731456, 15216790528, 15229845504, 15242927104, 15256019968, 15269107712, 15282224128, 15295334400, 15308472320, 15321621504, 15334765568, 15347938304, 15361104896, 15374299136, 15387505664, 15400706048, 15413935104, 15427158016, 15440409600, 15453672448, 15466929152, 15480215552, 15493495808, 15506803712, 15520123904, 15533437952, 15546780672, 15560118272, 15573483520, 15586861056, 15600232448, 15613632512, 15627043840, 15640450048, 15653884928, 15667313664, 15680772096, 15694240768, 15707704320, 15721197568, 15734683648, 15748199424, 15761726464]

/-- rows 8600 to 8699 of `kcorrect-lrg1-v4.fits` -/
def lrg1Units86 : List Nat :=
  [15775248384, 15788798976, 15802343424, 15815917568, 15829502976, 15843082240, 15856691200, 15870311424, 15883926528, 15897570304, 15911208960, 15924876288, 15938554880, 15952228352, 15965930496, 15979627520, 15993353216, 16007091200, 16020823040, 16034584576, 16048339968, 16062125056, 16075922432, 16089713664, 16103534592, 16117349376, 16131192832, 16145049600, 16158900224, 16172779520, 16186653696, 16200557568, 16214473728, 16228383744, 16242323456, 16256275456, 16270221312, 16284196864, 16298166272, 16312166400, 16326177792, 16340184064, 16354219008, 16368248832, 16382309376, 16396381184, 16410446848, 16424543232, 16438633472, 16452753408, 16466886656, 16481012736, 16495169536, 16509338624, 16523501568, 16537694208, 16551881728, 16566098944, 16580329472, 16594552832, 16608806912, 16623055872, 16637334528, 16651625472, 16665910272, 16680225792, 16694535168, 16708875264, 16723227648, 16737573888, 16751950848, 16766322688, 16780724224, 16795138048, 16809546752, 16823985152, 16838418432, 16852881408, 16867357696, 16881827840, 16896328704, 16910842880, 16925349888, 16939888640, 16954420224, 16968983552, 16983560192, 16998129664, 17012730880, 17027324928, 17041951744, 17056589824, 17071221760, 17085885440, 17100542976, 17115232256, 17129933824, 17144629248, 17159356416, 17174076416]

/-- rows 8700 to 8799 of `kcorrect-lrg1-v4.fits` -/
def lrg1Units87 : List Nat :=
  [17188829184, 17203593216, 17218351104, 17233141760, 17247926272, 17262741504, 17277569024, 17292390400, 17307244544, 17322110976, 17336971264, 17351864320, 17366749184, 17381666816, 17396596736, 17411520512, 17426477056, 17441427456, 17456408576, 17471404032, 17486391296, 17501411328, 17516445696, 17531471872, 17546530816, 17561583616, 17576669184, 17591767040, 17606858752, 17621981184, 17637099520, 17652248576, 17667411968, 17682567168, 17697757184, 17712939008, 17728153600, 17743382528, 17758603264, 17773858816, 17789106176, 17804386304, 17819678720, 17834967040, 17850286080, 17865598976, 17880944640, 17896304640, 17911658496, 17927043072, 17942421504, 17957834752, 17973260288, 17988677632, 18004129792, 18019594240, 18035054592, 18050545664, 18066030592, 18081548288, 18097080320, 18112606208, 18128162816, 18143715328, 18159300608, 18174898176, 18190489600, 18206115840, 18221733888, 18237386752, 18253051904, 18268710912, 18284402688, 18300108800, 18315806720, 18331539456, 18347266048, 18363025408, 18378778624, 18394566656, 18410366976, 18426159104, 18441988096, 18457829376, 18473662464, 18489532416, 18505394176, 18521288704, 18537197568, 18553100288, 18569037824, 18584967168, 18600931328, 18616909824, 18632880128, 18648885248, 18664884224, 18680915968, 18696962048, 18713001984]

/-- rows 8800 to 8899 of `kcorrect-lrg1-v4.fits` -/
def lrg1Units88 : List Nat :=
  [18729076736, 18745163776, 18761244672, 18777360384, 18793467904, 18809612288, 18825768960, 18841919488, 18858102784, 18874281984, 18890493952, 18906720256, 18922940416, 18939193344, 18955442176, 18971723776, 18988019712, 19004309504, 19020634112, 19036950528, 19053301760, 19069669376, 19086028800, 19102423040, 19118831616, 19135232000, 19151669248, 19168098304, 19184564224, 19201021952, 19217514496, 19234021376, 19250522112, 19267057664, 19283607552, 19300151296, 19316729856, 19333300224, 19349907456, 19366529024, 19383142400, 19399792640, 19416434688, 19433113600, 19449804800, 19466489856, 19483211776, 19499925504, 19516676096, 19533441024, 19550197760, 19566991360, 19583776768, 19600599040, 19617435648, 19634264064, 19651129344, 19668008960, 19684882432, 19701790720, 19718692864, 19735629824, 19752583168, 19769528320, 19786508288, 19803484160, 19820492800, 19837519872, 19854536704, 19871592448, 19888660480, 19905722368, 19922821120, 19939911680, 19957041152, 19974182912, 19991318528, 20008491008, 20025655296, 20042856448, 20060071936, 20077281280, 20094527488, 20111765504, 20129040384, 20146331648, 20163614720, 20180934656, 20198246400, 20215597056, 20232962048, 20250318848, 20267712512, 20285100032, 20302524416, 20319965184, 20337395712, 20354865152, 20372348928, 20389826560]

/-- rows 8900 to 8999 of `kcorrect-lrg1-v4.fits` -/
def lrg1Units89 : List Nat :=
  [20407341056, 20424847360, 20442392576, 20459952128, 20477503488, 20495093760, 20512675840, 20530294784, 20547930112, 20565557248, 20583223296, 20600881152, 20618575872, 20636286976, 20653989888, 20671731712, 20689465344, 20707237888, 20725024768, 20742803456, 20760621056, 20778452992, 20796278784, 20814141440, 20831997952, 20849891328, 20867801088, 20885702656, 20903643136, 20921577472, 20939546624, 20957534208, 20975513600, 20993529856, 21011539968, 21029588992, 21047652352, 21065707520, 21083803648, 21101891584, 21120016384, 21138157568, 21156292608, 21174464512, 21192630272, 21210832896, 21229053952, 21247264768, 21265516544, 21283758080, 21302040576, 21320339456, 21338628096, 21356957696, 21375303680, 21393641472, 21412016128, 21430386688, 21448794112, 21467217920, 21485633536, 21504090112, 21522536448, 21541023744, 21559527424, 21578022912, 21596557312, 21615085568, 21633652736, 21652234240, 21670809600, 21689423872, 21708029952, 21726676992, 21745340416, 21763995648, 21782689792, 21801400320, 21820102656, 21838845952, 21857581056, 21876355072, 21895147520, 21913929728, 21932752896, 21951569920, 21970425856, 21989296128, 22008160256, 22027065344, 22045962240, 22064898048, 22083852288, 22102796288, 22121783296, 22140760064, 22159777792, 22178813952, 22197839872, 22216906752]

/-- rows 9000 to 9099 of `kcorrect-lrg1-v4.fits` -/
def lrg1Units90 : List Nat :=
  [22235990016, 22255067136, 22274183168, 22293291008, 22312439808, 22331607040, 22350764032, 22369961984, 22389153792, 22408384512, 22427633664, 22446872576, 22466154496, 22485428224, 22504742912, 22524071936, 22543394816, 22562760704, 22582140928, 22601512960, 22620928000, 22640332800, 22659780608, 22679244800, 22698700800, 22718197760, 22737686528, 22757218304, 22776766464, 22796306432, 22815887360, 22835460096, 22855075840, 22874707968, 22894331904, 22913996800, 22933653504, 22953353216, 22973069312, 22992777216, 23012528128, 23032268800, 23052054528, 23071854592, 23091646464, 23111483392, 23131334656, 23151177728, 23171063808, 23190941696, 23210862592, 23230799872, 23250728960, 23270701056, 23290664960, 23310669824, 23330693120, 23350708224, 23370766336, 23390814208, 23410907136, 23431016448, 23451117568, 23471261696, 23491422208, 23511574528, 23531769856, 23551956992, 23572189184, 23592435712, 23612676096, 23632957440, 23653232640, 23673548800, 23693885440, 23714211840, 23734581248, 23754942464, 23775346688, 23795769344, 23816183808, 23836641280, 23857088512, 23877582848, 23898091520, 23918594048, 23939139584, 23959674880, 23980257280, 24000854016, 24021444608, 24042078208, 24062703616, 24083372032, 24104058880, 24124737536, 24145459200, 24166201344, 24186931200, 24207708160]

/-- rows 9100 to 9199 of `kcorrect-lrg1-v4.fits` -/
def lrg1Units91 : List Nat :=
  [24228474880, 24249286656, 24270116864, 24290936832, 24311801856, 24332658688, 24353558528, 24374478848, 24395388928, 24416344064, 24437288960, 24458280960, 24479289344, 24500289536, 24521334784, 24542371840, 24563451904, 24584552448, 24605642752, 24626778112, 24647931904, 24669075456, 24690266112, 24711446528, 24732674048, 24753917952, 24775153664, 24796434432, 24817707008, 24839024640, 24860360704, 24881688576, 24903061504, 24924424192, 24945833984, 24967262208, 24988680192, 25010145280, 25031628800, 25053102080, 25074622464, 25096132608, 25117689856, 25139265536, 25160830976, 25182443520, 25204047872, 25225697280, 25247365120, 25269024768, 25290729472, 25312425984, 25334167552, 25355929600, 25377681408, 25399480320, 25421268992, 25443106816, 25464961024, 25486807040, 25508698112, 25530583040, 25552513024, 25574461440, 25596401664, 25618386944, 25640392704, 25662388224, 25684432896, 25706467328, 25728546816, 25750646784, 25772738560, 25794877440, 25817006080, 25839181824, 25861376000, 25883561984, 25905795072, 25928019968, 25950289920, 25972582400, 25994862592, 26017191936, 26039539712, 26061877248, 26084263936, 26106642432, 26129065984, 26151481344, 26173945856, 26196428800, 26218901504, 26241423360, 26263963648, 26286493696, 26309072896, 26331643904, 26354262016, 26376898560]

/-- rows 9200 to 9299 of `kcorrect-lrg1-v4.fits` -/
def lrg1Units92 : List Nat :=
  [26399526912, 26422204416, 26444869632, 26467586048, 26490320896, 26513045504, 26535819264, 26558584832, 26581397504, 26604230656, 26627053568, 26649925632, 26672787456, 26695698432, 26718629888, 26741551104, 26764521472, 26787510272, 26810490880, 26833520640, 26856540160, 26879608832, 26902697984, 26925776896, 26948904960, 26972024832, 26995191808, 27018381312, 27041558528, 27064786944, 27088005120, 27111272448, 27134560256, 27157839872, 27181166592, 27204485120, 27227852800, 27251240960, 27274618880, 27298045952, 27321495552, 27344932864, 27368421376, 27391899648, 27415429120, 27438979072, 27462518784, 27486107648, 27509686272, 27533316096, 27556966400, 27580608512, 27604297728, 27627978752, 27651710976, 27675463680, 27699206144, 27722997760, 27746781184, 27770613760, 27794468864, 27818313728, 27842207744, 27866124288, 27890028544, 27913986048, 27937933312, 27961931776, 27985948672, 28009957376, 28034017280, 28058066944, 28082167808, 28106289152, 28130402304, 28154564608, 28178718720, 28202921984, 28227147776, 28251363328, 28275630080, 28299886592, 28324196352, 28348526592, 28372844544, 28397217792, 28421578752, 28445990912, 28470425600, 28494850048, 28519325696, 28543823872, 28568309760, 28592848896, 28617377792, 28641959936, 28666562560, 28691154944, 28715800576, 28740433920]

/-- rows 9300 to 9399 of `kcorrect-lrg1-v4.fits` -/
def lrg1Units93 : List Nat :=
  [28765122560, 28789829632, 28814528512, 28839278592, 28864020480, 28888813568, 28913627136, 28938432512, 28963289088, 28988135424, 29013035008, 29037957120, 29062868992, 29087832064, 29112817664, 29137793024, 29162821632, 29187840000, 29212911616, 29238003712, 29263087616, 29288222720, 29313347584, 29338527744, 29363728384, 29388918784, 29414164480, 29439397888, 29464684544, 29489993728, 29515292672, 29540644864, 29565986816, 29591384064, 29616801792, 29642209280, 29667672064, 29693155328, 29718628352, 29744154624, 29769672704, 29795244032, 29820837888, 29846419456, 29872056320, 29897682944, 29923364864, 29949067264, 29974759424, 30000506880, 30026244096, 30052036608, 30077849600, 30103652352, 30129510400, 30155358208, 30181261312, 30207184896, 30233100288, 30259068928, 30285060096, 30311041024, 30337077248, 30363103232, 30389184512, 30415288320, 30441379840, 30467528704, 30493665280, 30519859200, 30546073600, 30572279808, 30598539264, 30624790528, 30651095040, 30677424128, 30703740928, 30730115072, 30756476928, 30782896128, 30809337856, 30835769344, 30862256128, 30888765440, 30915264512, 30941818880, 30968363008, 30994964480, 31021588480, 31048200192, 31074871296, 31101528064, 31128244224, 31154982912, 31181709312, 31208493056, 31235266560, 31262097408, 31288950784, 31315791872]

/-- rows 9400 to 9499 of `kcorrect-lrg1-v4.fits` -/
def lrg1Units94 : List Nat :=
  [31342692352, 31369578496, 31396524032, 31423494144, 31450451968, 31477467136, 31504470016, 31531532288, 31558615040, 31585689600, 31612821504, 31639975936, 31667118080, 31694319616, 31721508864, 31748757504, 31776028672, 31803287552, 31830605824, 31857911808, 31885277184, 31912667136, 31940042752, 31967479808, 31994902528, 32022386688, 32049891328, 32077387776, 32104939520, 32132483072, 32160083968, 32187707392, 32215320576, 32242993152, 32270688256, 32298373120, 32326115328, 32353847296, 32381638656, 32409454592, 32437256192, 32465119232, 32492969984, 32520882176, 32548814848, 32576739328, 32604721152, 32632692736, 32660721664, 32688777216, 32716820480, 32744923136, 32773050368, 32801165312, 32829339648, 32857503744, 32885727232, 32913938432, 32942211072, 32970508288, 32998791168, 33027137536, 33055506432, 33083863040, 33112281088, 33140688896, 33169154048, 33197645824, 33226125312, 33254666240, 33283194880, 33311782912, 33340397568, 33368999936, 33397661696, 33426313216, 33455026176, 33483761664, 33512486912, 33541273600, 33570084864, 33598883840, 33627744256, 33656592384, 33685501952, 33714438144, 33743360000, 33772345344, 33801316352, 33830350848, 33859409920, 33888458752, 33917566976, 33946664960, 33975822336, 34005008384, 34034180096, 34063413248, 34092636160, 34121920512]

/-- rows 9500 to 9599 of `kcorrect-lrg1-v4.fits` -/
def lrg1Units95 : List Nat :=
  [34151229440, 34180528128, 34209888256, 34239272960, 34268645376, 34298081280, 34327504896, 34356992000, 34386501632, 34416001024, 34445565952, 34475114496, 34504728576, 34534367232, 34563993600, 34593681408, 34623361024, 34653097984, 34682867712, 34712621056, 34742435840, 34772242432, 34802110464, 34832003072, 34861883392, 34891829248, 34921799680, 34951761920, 34981781504, 35011792896, 35041865728, 35071926272, 35102052352, 35132207104, 35162345472, 35192549376, 35222777856, 35252994048, 35283275776, 35313545216, 35343876096, 35374235648, 35404582912, 35434995712, 35465392128, 35495858176, 35526348800, 35556823040, 35587366912, 35617894400, 35648491520, 35679113216, 35709718528, 35740393472, 35771092992, 35801780224, 35832532992, 35863273472, 35894079488, 35924910080, 35955728384, 35986616320, 36017487872, 36048424960, 36079390720, 36110340096, 36141359104, 36172361728, 36203433984, 36234530816, 36265615360, 36296769536, 36327907328, 36359110656, 36390342656, 36421562368, 36452847616, 36484116480, 36515454976, 36546822144, 36578172928, 36609593344, 36641042432, 36672475136, 36703973376, 36735463424, 36767014912, 36798599168, 36830167040, 36861804544, 36893425664, 36925116416, 36956835840, 36988538880, 37020311552, 37052067840, 37083897856, 37115748352, 37147590656, 37179498496]

/-- rows 9600 to 9699 of `kcorrect-lrg1-v4.fits` -/
def lrg1Units96 : List Nat :=
  [37211394048, 37243359232, 37275348992, 37307326464, 37339373568, 37371445248, 37403504640, 37435633664, 37467750400, 37499932672, 37532143616, 37564342272, 37596610560, 37628862464, 37661184000, 37693534208, 37725872128, 37758275584, 37790666752, 37823127552, 37855617024, 37888094208, 37920636928, 37953212416, 37985771520, 38018400256, 38051012608, 38083698688, 38116409344, 38149111808, 38181879808, 38214635520, 38247460864, 38280314880, 38313152512, 38346063872, 38378958848, 38411927552, 38444920832, 38477901824, 38510952448, 38543990784, 38577098752, 38610235392, 38643355648, 38676549632, 38709731328, 38742982656, 38776258560, 38809526272, 38842863616, 38876184576, 38909579264, 38942998528, 38976409600, 39009886208, 39043395584, 39076888576, 39110455296, 39144009728, 39177629696, 39211282432, 39244922880, 39278632960, 39312330752, 39346098176, 39379894272, 39413678080, 39447531520, 39481372672, 39515287552, 39549231104, 39583158272, 39617159168, 39651188736, 39685206016, 39719292928, 39753367552, 39787511808, 39821688832, 39855853568, 39890087936, 39924305920, 39958601728, 39992926208, 40027234304, 40061616128, 40095985664, 40130424832, 40164896768, 40199352320, 40233881600, 40268398592, 40302989312, 40337608704, 40372211712, 40406888448, 40441597952, 40476291072, 40511062016]

/-- rows 9700 to 9799 of `kcorrect-lrg1-v4.fits` -/
def lrg1Units97 : List Nat :=
  [40545812480, 40580640768, 40615497728, 40650342400, 40685260800, 40720162816, 40755138560, 40790147072, 40825139200, 40860209152, 40895258624, 40930390016, 40965545984, 41000689664, 41035907072, 41071112192, 41106391040, 41141698560, 41176993792, 41212362752, 41247719424, 41283149824, 41318608896, 41354055680, 41389580288, 41425129472, 41460670464, 41496281088, 41531879424, 41567555584, 41603260416, 41638952960, 41674719232, 41710469120, 41746296832, 41782157312, 41818001408, 41853919232, 41889824768, 41925808128, 41961820160, 41997819904, 42033893376, 42069954560, 42106089472, 42142257152, 42178412544, 42214641664, 42250854400, 42287149056, 42323472384, 42359779328, 42396168192, 42432581632, 42468986880, 42505465856, 42541928448, 42578472960, 42615046144, 42651602944, 42688241664, 42724859904, 42761560064, 42798292992, 42835005440, 42871799808, 42908577792, 42945437696, 42982326272, 43019198464, 43056152576, 43093086208, 43130105856, 43167150080, 43204182016, 43241295872, 43278438400, 43315564544, 43352772608, 43389964288, 43427233792, 43464536064, 43501821952, 43539189760, 43576541184, 43613974528, 43651436544, 43688882176, 43726409728, 43763920896, 43801513984, 43839139840, 43876745216, 43914436608, 43952107520, 43989864448, 44027650048, 44065419264, 44103270400, 44141154304]

/-- rows 9800 to 9899 of `kcorrect-lrg1-v4.fits` -/
def lrg1Units98 : List Nat :=
  [44179021824, 44216971264, 44254900224, 44292915200, 44330962944, 44368994304, 44407103488, 44445200384, 44483375104, 44521586688, 44559781888, 44598054912, 44636315648, 44674658304, 44713029632, 44751388672, 44789829632, 44828303360, 44866760704, 44905299968, 44943822848, 44982427648, 45021065216, 45059690496, 45098393600, 45137084416, 45175853056, 45214658560, 45253447680, 45292318720, 45331173376, 45370109952, 45409083392, 45448040448, 45487075328, 45526097920, 45565206528, 45604343808, 45643468800, 45682671616, 45721862144, 45761138688, 45800443904, 45839736832, 45879111680, 45918519296, 45957910528, 45997387776, 46036848640, 46076391424, 46115971072, 46155534336, 46195179520, 46234808320, 46274523136, 46314270720, 46354001920, 46393819136, 46433619968, 46473506816, 46513426432, 46553325568, 46593314816, 46633336832, 46673342464, 46713434112, 46753509376, 46793666560, 46833811456, 46874042368, 46914301952, 46954549248, 46994882560, 47035248640, 47075602432, 47116038144, 47156457472, 47196962816, 47237505024, 47278026752, 47318638592, 47359229952, 47399911424, 47440625664, 47481323520, 47522111488, 47562878976, 47603732480, 47644622848, 47685496832, 47726456832, 47767400448, 47808430080, 47849496576, 47890546688, 47931682816, 47972855808, 48014008320, 48055250944, 48096477184]

/-- rows 9900 to 9999 of `kcorrect-lrg1-v4.fits` -/
def lrg1Units99 : List Nat :=
  [48137789440, 48179138560, 48220471296, 48261890048, 48303292416, 48344784896, 48386310144, 48427823104, 48469417984, 48511000576, 48552669184, 48594374656, 48636063744, 48677838848, 48719650816, 48761446400, 48803332096, 48845201408, 48887156736, 48929148928, 48971124736, 49013190656, 49055236096, 49097371648, 49139548160, 49181700096, 49223946240, 49266176000, 49308491776, 49350848512, 49393184768, 49435611136, 49478021120, 49520521216, 49563058176, 49605578752, 49648189440, 49690779648, 49733464064, 49776181248, 49818882048, 49861677056, 49904504832, 49947316224, 49990221824, 50033106944, 50076082176, 50119098368, 50162094080, 50205179904, 50248249344, 50291412992, 50334613504, 50377793536, 50421063680, 50464321536, 50507669504, 50551054336, 50594418688, 50637877248, 50681319424, 50724851712, 50768424960, 50811977728, 50855624704, 50899308544, 50942971904, 50986729472, 51030470656, 51074306048, 51118174208, 51162030080, 51205976064, 51249901568, 51293925376, 51337986048, 51382026240, 51426164736, 51470278656, 51514490880, 51558739968, 51602972672, 51647299584, 51691606016, 51736006656, 51780444160, 51824865280, 51869384704, 51913879552, 51958472704, 52003102720, 52047716352, 52092424192, 52137168896, 52181897216, 52226719744, 52271521792, 52316422144, 52361359360, 52406280192]

/-- data/templates/kcorrect-lrg1-v4.fits, column `wave`, in pieces of 100 rows -/
def lrg1Units : List (List Nat) :=
  [lrg1Units0, lrg1Units1, lrg1Units2, lrg1Units3, lrg1Units4, lrg1Units5, lrg1Units6, lrg1Units7, lrg1Units8, lrg1Units9, lrg1Units10, lrg1Units11, lrg1Units12, lrg1Units13, lrg1Units14, lrg1Units15, lrg1Units16, lrg1Units17, lrg1Units18, lrg1Units19, lrg1Units20, lrg1Units21, lrg1Units22, lrg1Units23, lrg1Units24, lrg1Units25, lrg1Units26, lrg1Units27, lrg1Units28, lrg1Units29, lrg1Units30, lrg1Units31, lrg1Units32, lrg1Units33, lrg1Units34, lrg1Units35, lrg1Units36, lrg1Units37, lrg1Units38, lrg1Units39, lrg1Units40, lrg1Units41, lrg1Units42, lrg1Units43, lrg1Units44, lrg1Units45, lrg1Units46, lrg1Units47, lrg1Units48, lrg1Units49, lrg1Units50, lrg1Units51, lrg1Units52, lrg1Units53, lrg1Units54, lrg1Units55, lrg1Units56, lrg1Units57, lrg1Units58, lrg1Units59, lrg1Units60, lrg1Units61, lrg1Units62, lrg1Units63, lrg1Units64, lrg1Units65, lrg1Units66, lrg1Units67, lrg1Units68, lrg1Units69, lrg1Units70, lrg1Units71, lrg1Units72, lrg1Units73, lrg1Units74, lrg1Units75, lrg1Units76, lrg1Units77, lrg1Units78, lrg1Units79, lrg1Units80, lrg1Units81, lrg1Units82, lrg1Units83, lrg1Units84, lrg1Units85, lrg1Units86, lrg1Units87, lrg1Units88, lrg1Units89, lrg1Units90, lrg1Units91, lrg1Units92, lrg1Units93, lrg1Units94, lrg1Units95, lrg1Units96, lrg1Units97, lrg1Units98, lrg1Units99]

end KC
