import Verif.Model.Names

/-! Numeric codes of the names of `Model/Names`.  GENERATED by tools/gen_consts.py. -/

namespace Kry

/-- The characters of a name as one number (base 256). -/
def nameCode (s : String) : Nat := s.toList.foldl (fun n c => n * 256 + c.toNat) 0

/-- Codes and values of `mechNames`. -/
def mechNamesCodes : List (Nat × Nat) := [
  (349411200290604417283800856420369742, 4224),
  (422412221718775353131257845055356887254299737683489892812110, 0),
  (20826530475093241769554035539, 1),
  (20826530475093241769166846262, 2),
  (5331591801623869893040527454265, 3),
  (89449267278107186179103928160657032019, 4),
  (89449267278107200346203376769592673107, 5),
  (22899012423672064493873653671391230903123, 6),
  (25177730424327766625212306056214290424553205318501203, 7),
  (25177730424327766625212306061012214771148764855616339, 8),
  (22899012423596240883419072293484995102032, 9),
  (108137528760006490402292818590319846276647135057575881008956750, 10),
  (5331591801623869893039892673329, 11),
  (5862147180460048510431655339876189170774833, 12),
  (89449267279672815950855751146425832275, 13),
  (98350509470369213229990134874655667550099428365139, 14),
  (6445498988516670979089012123276009903809136723147310414, 15),
  (384181677598748438146609197675074199931786315086, 16),
  (18941619122492225, 17),
  (20826530474084435453073178929, 18),
  (1364887501149597561852603854369332, 19),
  (1364887501149597561852603854370102, 20),
  (1364887501149597561852603854436404, 21),
  (1364887501149597561852603854565682, 22),
  (317787635417648565273933, 23),
  (89449267275340025813572246204998365748, 24),
  (89449267275340025813572246204998366518, 25),
  (89449267275340025813572246204998432820, 26),
  (89449267275340025813572246204998562098, 27),
  (6445498988516670969856864919885842560236826882778547534, 28),
  (317787635417648564818753, 29),
  (349411200299048006903485358982583105, 31),
  (1650047741008797652437913463156291271831235465707348510030, 32),
  (5862147180155821688309151309518529314248261, 33),
  (25177730423453925510586018849274177350609499705193012, 35),
  (25177730423453925510586018849274177350609499705193782, 36),
  (25177730423453925510586018849274177350609499705260084, 37),
  (25177730423453925510586018849274177350609499705389362, 38),
  (1650047741031476462261765331306032486849544172684579058228, 39),
  (1650047741031476462261765331306032486849544172684579058998, 40),
  (1650047741031476462261765331306032486849544172684579125300, 41),
  (1650047741031476462261765331306032486849544172684579254578, 42),
  (1650047741031476462261765331306032486849544172787222000184, 43),
  (1650047741031476462261765331306032486849544172787222066486, 44),
  (1650047741094519718493502367536627932873888528030413309262, 45),
  (81353634668606784121623361, 46),
  (422412221727396594461547622111430472084711280934511515747662, 48),
  (1500709678223432044538113040173599819326641733, 49),
  (108137528762213528182156191260525969331031928032850976476583493, 50),
  (384181677625198603401756980951119676560646952517, 51),
  (89449267276556289767293940651069297473, 52),
  (6445498988404204930710142512786226577403046300704977460, 54),
  (6445498988404204930710142512786226577403046300704978230, 55),
  (6445498988404204930710142512786226577403046300705044532, 56),
  (6445498988404204930710142512786226577403046300705173810, 57),
  (422412221704057974339019899717958144976686042363006452642356, 58),
  (422412221704057974339019899717958144976686042363006452643126, 59),
  (422412221704057974339019899717958144976686042363006452709428, 60),
  (422412221704057974339019899717958144976686042363006452838706, 61),
  (422412221704057974339019899717958144976686042363109095584312, 62),
  (422412221704057974339019899717958144976686042363109095650614, 63),
  (1500709678197772418929081888726819878669599571, 64),
  (1500709678197772419242184231274043095628071763, 65),
  (1500709678197772419852682325446465089564263251, 66),
  (6445498988650116759351218055387602456968618148459729747, 67),
  (6445498988650116760695982376928915509417168803225162579, 68),
  (6445498988650116763318051725669796158484221554978739027, 69),
  (1500709678197772418925445666535010251855053651, 70),
  (6445498988650116759335600599992790670742178764969497427, 71),
  (1364887501220230133051411324351028, 72),
  (1500709678197772419852682323131319112333869379, 73),
  (27683207362653326685032404565481232860428887827458155575824761164, 74),
  (1814246677718848417630283665603378076801288457533757388713950007873358, 75),
  (1364887501220230133051411324351798, 76),
  (1500709678197772419852682323132165736287256899, 77),
  (27683207362653326685032404565496850315823699613684594959314993484, 78),
  (1814246677718848417630283665604401582358042842755893320150365873196878, 79),
  (20826530475162202957937794900, 80),
  (22899012423672064511912266931060266058051, 81),
  (422412221720174052200811837935013462763319396088962459255116, 82),
  (27683207362653326685032404610909102516521773401791140428203511630, 83),
  (130730250588183761666439149422614360460304981356665076358998275108292078412833887966789, 86),
  (2193289651852086017170369560719476410144396098096743025731407605119239590621051310538626122824, 87),
  (98350509470369213270545014241924251970193553310547, 96),
  (98350509470369213270545327344266799193410511782739, 97),
  (98350509470369213270545937842360971615404447974227, 98),
  (422412221720174052042240036264918894321244878258833495970643, 99),
  (422412221720174052042241381029240435634297326809488261403475, 100),
  (422412221720174052042244003098589176514946393862240014979923, 101),
  (98350509470369213270545010605702060160566738764627, 102),
  (422412221720174052042240020647463499509458651819450005738323, 103),
  (349411200311146102741729380684744014, 256),
  (81353634668315319051043650, 257),
  (81353634668315319050912323, 258),
  (81353634668315319051567427, 259),
  (1500709678192477535555982180868237785583206732, 260),
  (349411200311146102739474187847483716, 261),
  (349411200311146139635217528103847246, 272),
  (18941619123405620, 273),
  (349411200294231194742644743944488270, 288),
  (81353634664377010134270786, 289),
  (81353634664377010134139459, 290),
  (81353634664377010134794563, 291),
  (1500709678119828558885064868132799318427058508, 292),
  (349411200294231194740389551107227972, 293),
  (89449267275323185025456389847878419790, 304),
  (89449267275323185043903133921587971406, 305),
  (20826530474080514405831099202, 306),
  (20826530474080514405830967875, 307),
  (20826530474080514405831622979, 308),
  (384181677598676107594122682941473493735074578764, 309),
  (89449267275323185043900878728750711108, 310),
  (98350509465261083544092326480069324456588479709516, 311),
  (5331591801364611687892728496451, 312),
  (89449267275012463124551414406298682702, 320),
  (20826530474008168821351072578, 321),
  (20826530474008168821350941251, 322),
  (20826530474008168821351596355, 323),
  (384181677597341567112356698101941026772292354380, 324),
  (89449267275012463124549159213461422404, 325),
  (5331591801364611736202570249780, 336),
  (20826530474080514594541290040, 337),
  (5331591801364611736151030642228, 338),
  (20826530474080514594339963448, 339),
  (18941619123078194, 512),
  (20826530474728715181905232195, 513),
  (384181677610633301418732465866595154057239871820, 514),
  (18941619123078197, 528),
  (20826530474728718480440115523, 529),
  (384181677610633362265961276821606425898993729868, 530),
  (1241357950875890442033, 544),
  (1364887501220230144873553235624259, 545),
  (25177730424414518824791165754888722842798488164647244, 546),
  (5331591801623153510589798625848, 560),
  (5862147180439849995358918340926591703269699, 561),
  (108137528759991960440007143568183111839197803694703593831678284, 562),
  (5331591801623153510589798626864, 576),
  (5862147180439849995358918342043695517090115, 577),
  (108137528759991960440007143588790039996507900845434001138270540, 578),
  (317787635424227950212406, 592),
  (349411200312378913846118815244304707, 593),
  (6445498988650116759351218052285498288408385810070651212, 594),
  (317787635424227950211636, 597),
  (349411200312378913845272191290917187, 598),
  (6445498988650116759335600596890686502181946426580418892, 599),
  (317787635424227950278708, 608),
  (349411200312378913919018635189109059, 609),
  (6445498988650116760695982373826811340856936464836084044, 610),
  (317787635424227950407986, 624),
  (349411200312378914061161299404734787, 625),
  (6445498988650116763318051722567691989923989216589660492, 626),
  (1500709678197711741023719382595710703746106702, 640),
  (81353634668599065898535236, 642),
  (89449267276573219598706721495456367950, 656),
  (4849054495424861264, 657),
  (4849054495306634313, 672),
  (89449267274392317290994721948319565134, 673),
  (20826530475162202950119601462, 688),
  (22899012423672064503316072337777244324163, 689),
  (422412221720174052042240036264915792217076318026495106892108, 690),
  (384181677618629739338066461882514623643647427918, 691),
  (20826530475162202950119600692, 693),
  (22899012423672064503316071491153290936643, 694),
  (422412221720174052042240020647460397405290091587111616659788, 695),
  (384181677618629739338066447678521686887292683598, 696),
  (20826530475162202950119667764, 704),
  (22899012423672064503316145237597189128515, 705),
  (422412221720174052042241381029237333530128766577149872324940, 706),
  (384181677618629739338067684938540198734338671950, 707),
  (20826530475162202950119797042, 720),
  (22899012423672064503316287380261404754243, 721),
  (422412221720174052042244003098586074410777833629901625901388, 722),
  (384181677618629739338070069696720559757752485198, 723),
  (89449267275008864939545884768579568974, 768),
  (20826530474007331053620249410, 769),
  (20826530474007331053620118083, 770),
  (20826530474007331053620773187, 771),
  (384181677597326113025432990728778705276427714892, 772),
  (89449267275008864939543629575742308676, 773),
  (22899012422402269423713532580228168631630, 784),
  (5331591801345876749538241626946, 785),
  (5331591801345876749538241495619, 786),
  (5331591801345876749538242150723, 787),
  (98350509464915484931030391703266825418983242613068, 788),
  (22899012422402269423713530325035331371332, 789),
  (1500709678114555128949859364428265752332027214, 800),
  (349411200293003378657125719922262850, 801),
  (349411200293003378657125719922786627, 803),
  (349411200293003378657125719922131523, 802),
  (6445498988292701220428708794021145700607820776833433932, 804),
  (1500709678114555128949859364426010559494766916, 805),
  (349411200311146158081961601813398862, 816),
  (81353634668315331935945538, 817),
  (81353634668315331935814211, 818),
  (81353634668315331936469315, 819),
  (1500709678192477773240469723661250566215057740, 820),
  (349411200311146158079706408976138564, 821),
  (89449267276869335312313901492937901390, 832),
  (20826530474440505568010781506, 833),
  (20826530474440505568010650179, 834),
  (20826530474440505568011305283, 835),
  (384181677605316772431648551554678789588244382028, 836),
  (89449267276869335312311646300100641092, 837),
  (108137528755870514405189742692965924418465529187985640133182798, 848),
  (7086901084447608124136328629575050756365252647561975840289191576921, 864),
  (1814246677618587679778900129171212993629504677775865815114032925987905, 866),
  (1814246677618587679778900129171212993629663135290930697472370574185285, 867),
  (98350509472080018860299880523937149013453831230529, 868),
  (1650047741014862497564041017454513246187167076095495980377, 869),
  (27683207362657458339771600735912397094050207184842759849325839694, 880),
  (108137528760380696639731772003149530953930472641603844260320837, 881),
  (27683207362657458339771160777396285872737195864963607402683913797, 882),
  (1814246677719119189755254120959592361112777588490278281585762917893192, 883),
  (108137528760744651490290373833941789287838070324742395968046414, 884),
  (422412221721658794882903401280564919702468288017838583141957, 885),
  (108137528760744651489850415317830567974826750445589949326120517, 886),
  (7086901084864161480050165070418714259870966201225489762506577495112, 887),
  (81353634668888306343760454, 888),
  (89449267279982352096133096369212440899, 896),
  (22899012423675482136610506154979393093955, 897),
  (25177730423890468029522259102654258432613151540858702, 912),
  (25177730423890464041838271747906639721191970699824974, 913),
  (6445498988650116758240490400511516524881684169147109198, 914),
  (422412221720174051940841426334803280702591677345488658059086, 915),
  (422412221720174052028971900911334772907859893056196064137038, 916),
  (422412221720174052200811837750417127125118262195118450233166, 917),
  (422412221720174051939817920778048895480455745909072792735566, 918),
  (27683207362653326674640243016657581579603187037889280023741419342, 919),
  (6445498988650116760898438053358714464028176627561748037, 919),
  (27683207362653326674640241993152024825217964901957843607876095822, 920),
  (6445498988650116760898437815055256901592473709480334917, 920),
  (27683207362653326674640331147132158111095392306104990731147497294, 921),
  (6445498988650116760898458572833835638848923217995322949, 921),
  (27683207362653326674640502987068997193449609564474129653533593422, 922),
  (6445498988650116760898498582436935322696717820240680517, 922),
  (7086901084839251663636510931836515851163047868151603577362173218638, 923),
  (1650047741094429898922450591771983506894448741374445049413, 923),
  (7086901084839251663636511019966990427694540073419819288069579296590, 924),
  (1650047741094429898922450612291458628069269487964878624325, 924),
  (1500709678182074164764410498467122075861729859, 928),
  (1500709678182074164764410553807354296990384707, 929),
  (384181677614610986179689101774609516488818901571, 930),
  (98350509469340412462000410054300036220949130068547, 931),
  (6445498988582693271109658873318607173775509713437540931, 932),
  (1650047741077169477412069048484794752306468192058570129987, 933),
  (384181677614610986181550903358685992441009484344, 934),
  (1500709678182074164771683216244867157972694064, 935),
  (422412221715755386217489676412107770910563534426580204077635, 936),
  (422412221715755386217489676412107770910545087682506494526019, 937),
  (1650047741077169477412069048484812895030545456337483153987, 938),
  (6445498988582693271140894720643800371213071479415718467, 939),
  (349411200308766342758157302777988146, 944),
  (27683207362363739145142854109732607742685353076418410335049695555, 960),
  (27683207363040956552094934328011908769615563938735854005594309966, 976),
  (108137528761878736531619793847288248436607647461498743308244549, 977),
  (7792130147788213944307123226343732124189351058331561986845989391645833941041987, 978),
  (20826530475453823258060673606, 979),
  (1994785317833782769742661306539089676828139189250292311206729389728314675195106885, 980),
  (1994785317833782769742561043682448034985460900201738271844452339996039555005896261, 981),
  (384181677619980101431710777505448754491285718354, 982),
  (384181677619980101431710777505448736929012338260, 983),
  (5331591801660263993838519796035, 984),
  (5331591801660263993838519665734, 985),
  (27683207362750630518232873029767307663034325371134855346517530181, 992),
  (7086901084864161412667615322765020767685318289879235991980529505861, 993),
  (464447149497657682340584849120980550401182092165809633277279451639399496, 994),
  (422412221721658790866590459511579342588145295735018094155333, 995),
  (81353634668888306343559491, 996),
  (81353634668888306343429190, 997),
  (5862147180297559032327942373348845762267987, 1024),
  (98350509467643092158116872033226727484596305347920, 1025),
  (81353634664104331251501383, 1280),
  (1364887501182470740639359571678789, 1296),
  (20826530474586040354313748816, 1297),
  (81353634666351720133378371, 1298),
  (384181677597325990136671544734405427512144774478, 1360),
  (89449267275008836327277017928288256834, 1361),
  (89449267275008836327277017928288125507, 1362),
  (89449267275008836327277017928288780611, 1363),
  (1650047741002930984687822854928074715725905377359626912076, 1364),
  (384181677597325990136671544734403172319307514180, 1365),
  (1814246677618244305761094638427492310629883106909662298058707781637185, 1366),
  (1814246677618244305761094638427489647001877088146740532338038143013953, 1367),
  (89449267275008836327277017928288130130, 1368),
  (89449267274410399084683677230166394190, 1376),
  (20826530473867989863427818306, 1377),
  (20826530473867989863427686979, 1378),
  (20826530473867989863428342083, 1379),
  (384181677594755721751027126764929455843615850828, 1380),
  (89449267274410399084681422037329133892, 1381),
  (422412221693924292103550941689584302902051354459498067612737, 1382),
  (422412221693924292103548278061578284139129588738828428989505, 1383),
  (89449267279965394391687199030489072974, 1616),
  (20826530475161362996251673410, 1617),
  (20826530475161362996251542083, 1618),
  (20826530475161362996252197187, 1619),
  (384181677618614244924040732654138403468008898892, 1620),
  (89449267279965394391684943837651812676, 1621),
  (422412221720157015753842547976223772817531682980364913038401, 1622),
  (422412221720157015753839884348217754054609917259695274415169, 1623),
  (384181677618645480779054623673987755640753702222, 4096),
  (5862147180460288708176492670806672126654004, 4097),
  (5862147180460288708176492670806663520007732, 4098),
  (5862147180460288708176492670806715126658612, 4099),
  (5862147180460288708176492670806663587051060, 4100),
  (5862147180460288708176492670806663587050290, 4101),
  (5862147180460288708176492670806663587049782, 4102),
  (22899012423673002766314424495338529636920, 4103),
  (22899012423673002766314424495338865967440, 4104),
  (422412221720191359939644469882206945819018478173629099163984, 4105),
  (1500709678197833909293182123726522366833023320, 4106),
  (384181677607980341961084121198601422405139645774, 4112),
  (5862147180297551604630800189174466965231173, 4113),
  (1364887501182395872799154164553285, 4114),
  (25177730423284463624412649625039103263585960504413520, 4128),
  (22899012422323042447011317532905731212622, 4144),
  (89449267274699384558637952506864415288, 4145),
  (349411200291794470932179501979941174, 4146),
  (89449267274699384558637950303562969656, 4147),
  (22899012422323042447011315292083569575250, 4148),
  (22899012422323042447011319787986480417861, 4149),
  (1364887501139822152078826482581840, 4150),
  (1500709678124981235463084812830589225473099086, 4160),
  (1241357950815677207361, 4161),
  (1364887501154024993205684418396465, 4162),
  (89449267275630181954727734044030808628, 4163),
  (89449267275630181954727734044030809398, 4164),
  (89449267275630181954727734044030875700, 4165),
  (89449267275630181954727734044031004978, 4166),
  (30438008387895126556516725100880437498614378629762189825602069142580448810067, 5131),
  (89449267275630181750660611223346304581, 4176),
  (422412221699684552881753775949958172042521912855671341667909, 4177),
  (89449267275630224420645784692942526021, 4178),
  (98350509465598629996498790210149006621126497026384, 4179),
  (384181677617357630084503141462956006448196370768, 4180),
  (1500709678151306455644095416866548392093238606, 4192),
  (5862147180278540842359747722128348608016952, 4193),
  (5862147180278540842359747722126145306571320, 4194),
  (1500709678151306455644095416864307569931601234, 4195),
  (1500709678151306455644095416868803472842443845, 4196),
  (89449267277199414708858455232974307664, 4197),
  (20826530474223503835347899208, 4208),
  (81353634663532585205388371, 4209),
  (1500709678104251668322848589375174400560022862, 4210),
  (349411200290604417283800856420369742, 4224),
  (81353634663532585204138818, 4225),
  (81353634663532585204007491, 4226),
  (81353634663532585204662595, 4227),
  (1500709678104251668309460385247207829439398220, 4228),
  (349411200290604417281545663583109444, 4229),
  (81353634663532585204012114, 4230),
  (81353634663532585204269901, 4231),
  (81353634663532585204007757, 4232),
  (81353634663532585204012115, 4233),
  (20826530473864341812226638147, 4234),
  (384181677594688427084141505675395264745873490252, 4235),
  (89449267274394730825589179607530946883, 4236),
  (1500709678104251668322767993538341922546858294, 4237),
  (20826530473864341812293747011, 4238),
  (384181677596053919395396155041919503402325722446, 4240),
  (89449267274712659277812613882570818115, 4241),
  (1500709678203270067339961929219020670972151118, 4242),
  (349411200313658934864206688761889347, 4243),
  (384181677596053919395396155041917248209488462148, 4244),
  (1500709678203270067339961929216765478134890820, 4245),
  (1650047741008729709951146481200464965966653470023260132417, 4352),
  (1650047741008729709948482853194446203044887749353621509185, 4353),
  (422412221698234801923402922791968288834236963219531752363073, 4354),
  (422412221698234801923400259163962270071315197498862113739841, 4355),
  (1650047740991602737638674962627765534333259528386667172929, 4356),
  (1650047740991602737636011334621746771411493807717028549697, 4357),
  (108137528755885158301020577429259254699367750870815675683128654, 4608),
  (5331591801420672532282015494448, 4609),
  (7086901084545689734415684562403934759682017655550531019974521401649, 4610),
  (25177730423371577239832975303116080979669408728367440, 4611),
  (384181677602715717160537342882020270923743581765, 4612),
  (5331591801420672532282015494449, 4624),
  (5862147180217219805306050764192082717131075, 4625),
  (98350509466295223590563802389908607062421222671694, 4640),
  (22899012422723514863886824434136181457730, 4641),
  (5331591801420672532144660231223, 4642),
  (22899012422723514863886824434136181981507, 4643),
  (25177730423371577239184333411816603407979833273237840, 4644),
  (384181677597362092666058372527906481981622797646, 4645),
  (20826530474009281513847337520, 4646),
  (384181677614678627531662148611380990957444351310, 4647),
  (20826530474948012749907767349, 4648),
  (98350509465279600165926848873144250781767221855566, 8192),
  (422412221698252199024105846568405459857121534820311143761230, 8193),
  (108137528762213528182156191260526595747954413174834177956595022, 8194),
  (510665041331871097775147176362472546699986799298629089432033274523518376815534490958, 8195),
  (1994785317702621475688926359515269756772276948119421199943346125620852834601223502, 8196),
  (5862147180156683931656899499628741993645390, 8197),
  (81353634663532585204794946, 8452),
  (5331591801309271503929901987380, 8453),
  (20826530473864341812226179640, 8454),
  (1364887501135173505006054908441144, 8455),
  (20826530473864341812226179633, 8456),
  (89449267274394730824653019243883938128, 8457),
  (384181677594688427086607828200140162281046556996, 8458),
  (384181677594688427086607828200140162281046234960, 8459),
  (25177730422845500757547930628924385675250667327017783, 8460),
  (384181677617357630089152594387414579487905505073, 16385),
  (422412221718775353131257845055358120263912800006359777107761, 16386),
  (22899012423672064710254896157299478840654, 16387),
  (5862147180460048511427522132916768875169102, 16388),
  (5862147180460048511441726125853525229913422, 16389),
  (5862147180460048512664782151428615921157454, 16390),
  (5862147180460048515049540331789639334970702, 16391),
  (25177730424414518606711139514555937113389323078026574, 16392),
  (25177730424414518606711139514570141106326079432770894, 16393),
  (384181677618629739482286675352056028405780923726, 16394),
  (4849054495525915724, 16395),
  (349411200291846066184540526214198832, 16396),
  (384181677596053634490586383584413357025272873283, 16397),
  (7086901084422796000405203597255750494147901656336993154097338270028, 16398),
  (108137528754009948736651666217891700655346993313770425285170757, 16399),
  (6445498988271352573433617724054557124098956186400277838, 16400),
  (349411200291846066184540526214264118, 16401),
  (384181677596053634490586383584485139741403857219, 16402),
  (7086901084422796000405203597257074651541285659292290974344797110604, 16403),
  (108137528754009948736651666217911905693698189647927191341192773, 16404),
  (6445498988271352573433617724055761438232552388187080014, 16405),
  (349411200291846066184540526214330420, 16406),
  (384181677596053634490586383584558039561348661571, 16407),
  (7086901084422796000405203597258419415862826972344739524999562543436, 16408),
  (108137528754009948736651666217932425168819364468673781774767685, 16409),
  (6445498988271352573433617724056984494258127478878324046, 16410),
  (349411200291846066184540526214459698, 16411),
  (384181677596053634490586383584700182225564287299, 16412),
  (7086901084422796000405203597261041485211567852993806577751316119884, 16413),
  (108137528754009948736651666217972434771919048316468384020125253, 16414),
  (6445498988271352573433617724059369252438488502292137294, 16415),
  (81353634668594706472055344, 16416),
  (98350509464924695722510943367144422475695601692725, 16417),
  (384181677618593618892578985562712386879781810229, 16418),
  (1500709678223308217164101395797285251962198597, 16419),
  (89449267281491054127463324772977299012, 16420),
  (1650047741122485713908032790033000104128515646556960545349, 16421),
  (98350509472041470641376542450964459566146895433284, 16422),
  (98350509472041470641376542450964455916799117578324, 16423),
  (98350509472041470641376542450964455625428536217684, 16424),
  (317787635429712674968385, 16425),
  (349411200299094953723027835828393541, 16426),
  (5331591801438826808517880534081, 16427),
  (89449267276568308153097096327338607950, 16428),
  (1500709678197631323799136662352926947186001230, 16429),
  (5862147180175699604585036778309608124068404, 4167),
  (5862147180175699604585036778309608124069174, 4168),
  (5862147180175699604585036778309608124135476, 4169),
  (5862147180175699604585036778309608124264754, 4170),
  (27683207361310566301498867666461292298210519320156077271846176078, 4181),
  (464447149473497414692917940351041937593771800922288299081352864525141326, 4182),
  (1241357950815693984577, 4183),
  (422412221720219522984429505530782173071399414088494681375814, 940),
  (108137528760376197884013953415880237222568277645197730613249094, 941),
  (7792130147679944624411644314844627890947073982556739274552229281992372359218246, 942),
  (1650047741037407233426375056770263422766821754320034813509, 16430),
  (5862147180257463392362471990725428355094085, 16431),
  (1500709678145910614226607039972177898635875909, 16432),
  (1650047741037407233086035697379483907127101748329491027525, 16433),
  (384181677604065715213121726896757059223430841678, 16434),
  (18941619122754387, 16435),
  (98350509472077365355516948715697736346125113705806, 16436),
  (6445498988762062215845882004832819034164150134792209742, 16437),
  (4849054495693165395, 16438),
  (317787635429747287346516, 16439),
  (6445498988337471815451013264963310666651569195366629712, 16440),
  (422412221699684552897369608571440686178742864143376012427600, 16441),
  (422412221715863790137173612697983000974616561244986594248025, 16442)]

/-- Codes and values of `attrNames`. -/
def attrNamesCodes : List (Nat × Nat) := [
  (1241354573107517543251, 0),
  (1241354573180582970702, 1),
  (81353413306840075890414661, 2),
  (1241354573145987761484, 3),
  (5331577294569016698134702541124, 4),
  (349410249552706135433169539900723022, 16),
  (1241354573188938093893, 17),
  (5331577294457471810767769520452, 18),
  (384180632249915680800680671980795273390367264837, 128),
  (317786770722151927727442, 129),
  (22898950116108854285434545031971418031442, 130),
  (5331577294199295366771133203794, 131),
  (1241354573159242548562, 132),
  (1364883787315332418455602038064467, 133),
  (81353413307966027287774532, 134),
  (1650043251269990747796498580696819239281774713805042831961, 135),
  (1814241741148512914850613239658758647510586176170356795453753555765582, 136),
  (18941567583998540, 137),
  (464445885730805357223922752846399845067042683211923585962935348649215321, 138),
  (1814241741135958426655948253302844001160092283065021719792550197019993, 139),
  (6445481450518359385384198319793149054224435096971397197, 140),
  (349410249555086004578426510096749893, 144),
  (20826473806187129914219122757, 256),
  (81353413307687769089590100, 257),
  (73990498371908, 258),
  (5331577294531476101163559507525, 259),
  (81353413303739427264745556, 260),
  (81353413303448056683384916, 261),
  (4849041301537177936, 262),
  (317786770735324659335504, 263),
  (4849041301469480782, 264),
  (89449023891054995904122946886638650706, 265),
  (317786770736385431783001, 266),
  (5862131229784713925906050180652096210486610, 267),
  (317786770716594222487109, 268),
  (1364883787400333646040921194714181, 272),
  (20826473805757294534767760453, 273),
  (81353413305992330934506835, 288),
  (89449023889205325360772089807781844051, 289),
  (1500705594794056235715775992902004868311764564, 290),
  (384180632267262962219356449761446636433917169236, 291),
  (81353413306840075739684657, 292),
  (81353413306840075739684658, 293),
  (1364883787334295382269818068819761, 294),
  (1364883787334295382269818068819762, 295),
  (349410249555119061358547734117043796, 296),
  (1500705594794056235715775993329012372222658127, 297),
  (1241354573163453304133, 304),
  (20826473806768068912923364677, 305),
  (4849041301183746885, 306),
  (1364883787386130228141049552393299, 307),
  (22898950116113786736148511499160264463443, 308),
  (5862131229725129422578627239728350214313043, 308),
  (1364883787414151050813596288767059, 352),
  (5331577294586527542240611157326, 353),
  (349410249557579691860561154298498117, 354),
  (1241354573146222707020, 355),
  (98350241859721540786776651061406841644791653092421, 356),
  (384180632247293670798801094896010674618411603525, 357),
  (98350241858700709789367515485789650274175796466509, 358),
  (1364883787371907427047354396724293, 368),
  (20826473805613473989988076613, 369),
  (349410249556281022779941406449486917, 370),
  (5331577294273082350685225307475, 384),
  (20826473805754227932598455892, 385),
  (6445481450229411330424378504555509393703237098812822597, 514),
  (98350241862801253238910272596913397466022261572932, 528),
  (1364883787381445264617066233413972, 544),
  (1364883787381445264623620286010440, 545),
  (98350241860081730947347518985637755368230186533196, 546),
  (108137234519741758030408249692730258823466925653095782139511877, 547),
  (1814241741180363738669523855174312642532482952012396346016701832580692, 548),
  (1650043251338832977757533953086156357344845714651328368212, 549),
  (27683132037053890055382755497765491212119912700358980091559366228, 550),
  (6445481450542316319344597904067654525210014884118744660, 551),
  (349410249569649987741124543726765394, 558),
  (20826473806479572519415795013, 559),
  (6445481450542316319370761495395332108162119388950512978, 554),
  (108137234519741758030229278468016523137272914756002462594319698, 555),
  (384180632265944261512761949248387776156076558159, 556),
  (422411072342741242305583119015689543505028456695487060856901, 557),
  (384180632255284536037577583395226253708757126483, 592),
  (384180632255284536037577583395298311302795054419, 593),
  (384180632255284536027680093598786471425896172883, 594),
  (1500705594752560721421662180177940154752258117, 768),
  (22898950116029627313308487105658926025044, 769),
  (5331577294328275106584029513044, 770),
  (81353413306830244425785176, 1024),
  (81353413306830244425785177, 1025),
  (1364883787395335874580374885060430, 1026),
  (5331577294236540708586567718739, 1027),
  (89449023886101998560745679144054771283, 1028),
  (1241354573107568594770, 1029),
  (5862131229379383277660242936266230351807820, 1030),
  (5331577294236540708586583839827, 1152),
  (384180632252620562830148675245012881437220619347, 1153),
  (1364883787371797394002894012826963, 1154),
  (5862131229602167595965295675470074449842245, 1280),
  (27683132037335622207553548964462204718816679434952752819472713043, 1281),
  (108137234515604189136192037365765687314281364671429014606595411, 1282),
  (7086881801583971327910756553742525061909624471543031763199646254419, 1283),
  (1364883787386130658520605436889412, 1537),
  (22898950116499114845390162435906283389255, 1538),
  (98350241863099088273898844022345183277759660120645, 1539),
  (1650043251389455833374268068313193966668455916574304195399, 1540),
  (22898950116499114845390162435906283457362, 1541),
  (22898950116499114845390162435906283457363, 1542),
  (22898950116499114845390162435906283522128, 1543),
  (22898950116499114845390162435906283522130, 1544),
  (22898950116499114845390162435906283522131, 1545),
  (22898950116499114845390162435906283785042, 1546),
  (22898950116499114845390162435906283785043, 1547),
  (98350241863099088273898844022345185267849819145029, 1548),
  (5862131229823773400419881583592008749435730, 1549),
  (5862131229823773400419881583592008749435731, 1550),
  (89449023892574667364805322015258922578, 1551),
  (89449023892574667364805322015258922579, 1552),
  (22898950116499114845390162435906284310099, 1553),
  (89449023892574667364805322015258923595, 1554),
  (1364883787348370468672241307831379, 1559),
  (89449023887662807034906254963119837253, 1560),
  (5862131229501869721839616033935347085299781, 1561),
  (22898950115241678600936001270558678336851, 1562),
  (1500705594752478648790941704687448853836744019, 1563),
  (25177661915570800826132854681743376024346237269003847, 1564),
  (22898950115869931820294388195552044205396, 1565),
  (27683132037047146538394789645069711372262238575987287768892000083, 1566),
  (1500705594824805160022027761984520905717010501, 1567),
  (25177661916784238327604124520810895892270888600031054, 1568),
  (384180632275150120965639107068037351828859798860, 1569),
  (1650043251378371843037863904595862873030560896130696038724, 1570),
  (1500705594824805160022027761984520905481273671, 1571),
  (1814241741223837180819166914544152354718207410888747214020637194014789, 1572),
  (25177661916784238327604124520810895886933871960543833, 1573),
  (33466853088197316440893024055036164034920517009853954015016881837604308096225301251048786, 1574),
  (464445885753302318289706730123303002817921017601115380099797728087069257, 1575),
  (422411072352863191817693159576540895538141136108768042766921, 1576),
  (25177661916784238327604124520810895890596319287921733, 1577),
  (1650043251281608122904651427383652913658362199888581710917, 1578),
  (1650043251275698425427040812251145948316110384089496900677, 1579),
  (98350241861780510044062834825059032176071930106952, 1580),
  (98350241861780510044062815515135240581804434216008, 1581),
  (25177661916615810571280080775477788440044934521245255, 1582),
  (108137234521609585400179026434926281795326225920369497802886990, 1583),
  (1500705594814766083436017193416810433312541509, 1584),
  (6445481450653647506247702023555046856596793201405808199, 1585),
  (25177661916615810571280084474861834872238064605417031, 1586),
  (349410249557532153380343827455366213, 1587),
  (349410249556280726262383371473736773, 1588),
  (6445481450384556959875042470645154297963442386870817861, 1589),
  (25177661916268356982750488438084975054189015992128837, 1590),
  (4849041301469218116, 1591),
  (22898950116429769722490883263123754669125, 1073742353),
  (1500705594819877408779937413113722459698320453, 1073742354),
  (1500705594731425421597570314861690557168702533, 1073742355),
  (25177661914958623460612748585484893804768443512343891, 1073743360),
  (5862131229784712681963753964395349387658564, 2147483648)]

/-- Codes and values of `objNames`. -/
def objNamesCodes : List (Nat × Nat) := [
  (4849056694380090433, 0),
  (349411358749347278211765774099502149, 1),
  (1364888120176322562523877859870041, 2),
  (349411358765124538752215360087999833, 3),
  (1364888120190194587809426308810073, 4),
  (1364888120138582612126038536573509, 5),
  (98350554066764742013729448543649160334303583097427, 6),
  (5331594219382267133175915959117, 7),
  (81353671560977862087099737, 8),
  (81353671561257133326027845, 9),
  (1364888120204288546265630656515918, 10),
  (1241358513830307910484, 11),
  (5862149838976653670785974617694193312482628, 2147483648)]

end Kry
