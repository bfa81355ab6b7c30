import Verif.Base

/-!
# The tables of matter that come with the project (data/astro)

Entered as whole numbers of the last decimal place, exactly as the files are written; turned into decimals in
`Verif.Body.Default`. Generated from the files; nothing is computed but the shift of the decimal point.
-/

namespace Verif.Bodies

def premRows0 : List (Nat × Nat × Nat) := [
   (0, 130884999999999980200, 4656000000000000139), (5000000000000000104, 130882790475000003700, 4656000000000000139),
   (10000000000000000210, 130876161900000003200, 4656000000000000139), (14999999999999999440, 130865114274999978500, 4656000000000000139),
   (20000000000000000420, 130849647599999983100, 4656000000000000139), (25000000000000001390, 130829761874999981300, 4656000000000000139),
   (29999999999999998890, 130805457099999991000, 4656000000000000139), (35000000000000003330, 130776733274999976700, 4656000000000000139),
   (40000000000000000830, 130743590399999991500, 4656000000000000139), (44999999999999998330, 130706028474999982300, 4656000000000000139),
   (50000000000000002780, 130664047499999984600, 4656000000000000139), (55000000000000000280, 130617647474999980500, 4656000000000000139),
   (59999999999999997780, 130566828400000005700, 4656000000000000139), (65000000000000002220, 130511590275000006800, 4656000000000000139),
   (70000000000000006660, 130451933099999983800, 4656000000000000139), (74999999999999997220, 130387856874999990000, 4656000000000000139),
   (80000000000000001670, 130319361599999989900, 4656000000000000139), (85000000000000006110, 130246447274999983500, 4656000000000000139),
   (89999999999999996670, 130169113900000006400, 4656000000000000139), (95000000000000001110, 130087361475000005100, 4656000000000000139),
   (100000000000000005600, 130001189999999979800, 4656000000000000139), (104999999999999996100, 129910599474999983700, 4656000000000000139),
   (110000000000000000600, 129815589899999981300, 4656000000000000139), (115000000000000005000, 129716161274999990400, 4656000000000000139),
   (119999999999999995600, 129612313599999993100, 4656000000000000139), (125000000000000000000, 129504046874999989600, 4656000000000000139),
   (130000000000000004400, 129391361099999979700, 4656000000000000139), (135000000000000008900, 129274256274999981300, 4656000000000000139),
   (140000000000000013300, 129152732399999976600, 4656000000000000139), (144999999999999990000, 129026789474999983300, 4656000000000000139),
   (149999999999999994400, 128896427499999983700, 4656000000000000139), (154999999999999998900, 128761646474999977800, 4656000000000000139),
   (160000000000000003300, 128622446399999983400, 4656000000000000139), (165000000000000007800, 128478827274999982700, 4656000000000000139),
   (170000000000000012200, 128330789099999975600, 4656000000000000139), (175000000000000016700, 128178331874999980000, 4656000000000000139),
   (179999999999999993300, 128021455599999978100, 4656000000000000139), (184999999999999997800, 127860160275000005500, 4656000000000000139),
   (190000000000000002200, 127694445899999991000, 4656000000000000139), (195000000000000006700, 121555597059999982400, 4656000000000000139),
   (200000000000000011100, 121388119999999979400, 4656000000000000139), (205000000000000015500, 121217163239999976600, 4656000000000000139),
   (209999999999999992200, 121042685320000007500, 4656000000000000139), (214999999999999996700, 120864644779999981200, 4656000000000000139),
   (220000000000000001100, 120683000160000002400, 4656000000000000139), (225000000000000005600, 120497709999999980100, 4656000000000000139),
   (230000000000000010000, 120308732840000001100, 4656000000000000139), (235000000000000014400, 120116027219999974600, 4656000000000000139),
   (239999999999999991100, 119919551680000005000, 4656000000000000139), (244999999999999995600, 119719264760000001500, 4656000000000000139),
   (250000000000000000000, 119515124999999979800, 4656000000000000139), (255000000000000004400, 119307090939999991300, 4656000000000000139),
   (260000000000000008900, 119095121119999980400, 4656000000000000139), (265000000000000013300, 118879174079999980800, 4656000000000000139),
   (270000000000000017800, 118659208359999990300, 4656000000000000139), (275000000000000022200, 118435182499999989100, 4656000000000000139),
   (280000000000000026600, 118207055039999993100, 4656000000000000139), (285000000000000031100, 117974784520000000000, 4656000000000000139),
   (289999999999999980000, 117738329479999990200, 4656000000000000139), (294999999999999984500, 117497648459999979300, 4656000000000000139),
   (299999999999999988900, 117252700000000000800, 4656000000000000139), (304999999999999993300, 117003442639999999400, 4656000000000000139),
   (309999999999999997800, 116749834919999990700, 4656000000000000139), (315000000000000002200, 116491835380000008400, 4656000000000000139),
   (320000000000000006700, 116229402559999996900, 4656000000000000139), (325000000000000011100, 115962494999999989900, 4656000000000000139),
   (330000000000000015500, 115691071240000003000, 4656000000000000139), (335000000000000020000, 115415089819999980800, 4656000000000000139),
   (340000000000000024400, 115134509280000010300, 4656000000000000139), (345000000000000028900, 114849288160000000400, 4656000000000000139),
   (350000000000000033300, 114559385000000002500, 4656000000000000139), (354999999999999982200, 114264758339999996700, 4656000000000000139),
   (359999999999999986700, 113965366719999998700, 4656000000000000139), (364999999999999991100, 113661168679999988700, 4656000000000000139),
   (369999999999999995600, 113352122760000000300, 4656000000000000139), (375000000000000000000, 113038187499999995800, 4656000000000000139),
   (380000000000000004400, 112719321439999973200, 4656000000000000139), (385000000000000008900, 112395483120000001500, 4656000000000000139),
   (390000000000000013300, 112066631080000007600, 4656000000000000139), (395000000000000017800, 111732723860000007200, 4656000000000000139),
   (400000000000000022200, 111393719999999998300, 4656000000000000139), (405000000000000026600, 111049578039999978800, 4656000000000000139),
   (410000000000000031100, 110700256519999999900, 4656000000000000139), (415000000000000035500, 110345713980000006400, 4656000000000000139),
   (419999999999999984500, 109985908959999978400, 4656000000000000139), (424999999999999988900, 109620800000000002700, 4656000000000000139),
   (429999999999999993300, 109250345640000006100, 4656000000000000139), (434999999999999997800, 108874504419999986700, 4656000000000000139),
   (440000000000000002200, 108493234879999977900, 4656000000000000139), (445000000000000006700, 108106495559999995500, 4656000000000000139),
   (450000000000000011100, 107714245000000001800, 4656000000000000139), (455000000000000015500, 107316441739999977000, 4656000000000000139),
   (460000000000000020000, 106913044319999972500, 4656000000000000139), (465000000000000024400, 106504011280000003800, 4656000000000000139),
   (470000000000000028900, 106089301159999998000, 4656000000000000139), (475000000000000033300, 105668872499999988400, 4656000000000000139),
   (479999999999999982200, 105242683839999990900, 4656000000000000139), (484999999999999986700, 104810693720000003300, 4656000000000000139),
   (489999999999999991100, 104372860679999988100, 4656000000000000139), (494999999999999995600, 103929143259999996500, 4656000000000000139)]

def premRows1 : List (Nat × Nat × Nat) := [
   (500000000000000000000, 103479499999999990900, 4656000000000000139), (505000000000000004400, 103023889440000004900, 4656000000000000139),
   (510000000000000008900, 102562270120000000900, 4656000000000000139), (515000000000000013300, 102094600579999976700, 4656000000000000139),
   (520000000000000017800, 101620839360000001500, 4656000000000000139), (525000000000000022200, 101140945000000002100, 4656000000000000139),
   (530000000000000026600, 100654876039999976500, 4656000000000000139), (535000000000000031100, 100162591019999975800, 4656000000000000139),
   (540000000000000035500, 99664048479999998160, 4656000000000000139), (545000000000000040000, 99159206959999970370, 4656000000000000139),
   (550000000000000044400, 55544042874999997040, 4956999999999999740), (555000000000000048800, 55384615047874996560, 4956999999999999740),
   (560000000000000053300, 55225386687999993280, 4956999999999999740), (565000000000000057700, 55066334690124989490, 4956999999999999740),
   (570000000000000062200, 54907435948999987470, 4956999999999999740), (575000000000000066600, 54748667359374989520, 4956999999999999740),
   (579999999999999960000, 54590005815999989030, 4956999999999999740), (584999999999999964500, 54431428213624997170, 4956999999999999740),
   (589999999999999968900, 54272911446999989590, 4956999999999999740), (594999999999999973400, 54114432410875004110, 4956999999999999740),
   (599999999999999977800, 53955967999999998600, 4956999999999999740), (604999999999999982200, 53797495109125001990, 4956999999999999740),
   (609999999999999986700, 53638990632999998810, 4956999999999999740), (614999999999999991100, 53480431466375000230, 4956999999999999740),
   (619999999999999995600, 53321794503999999650, 4956999999999999740), (625000000000000000000, 53163056640624999360, 4956999999999999740),
   (630000000000000004400, 53004194771000001650, 4956999999999999740), (635000000000000008900, 52845185789874999930, 4956999999999999740),
   (640000000000000013300, 52686006591999996470, 4956999999999999740), (645000000000000017800, 52526634072125002460, 4956999999999999740),
   (650000000000000022200, 52367045125000002410, 4956999999999999740), (655000000000000026600, 52207216645374998620, 4956999999999999740),
   (660000000000000031100, 52047125528000002250, 4956999999999999740), (665000000000000035500, 51886748667624997820, 4956999999999999740),
   (670000000000000040000, 51726062958999987630, 4956999999999999740), (675000000000000044400, 51565045296875000600, 4956999999999999740),
   (680000000000000048800, 51403672576000003500, 4956999999999999740), (685000000000000053300, 51241921691124989740, 4956999999999999740),
   (690000000000000057700, 51079769536999988230, 4956999999999999740), (695000000000000062200, 50917193008374992400, 4956999999999999740),
   (700000000000000066600, 50754168999999995650, 4956999999999999740), (704999999999999960000, 50590674406625009140, 4956999999999999740),
   (709999999999999964500, 50426686122999999640, 4956999999999999740), (714999999999999968900, 50262181043874996080, 4956999999999999740),
   (719999999999999973400, 50097136064000000740, 4956999999999999740), (724999999999999977800, 49931528078124998160, 4956999999999999740),
   (729999999999999982200, 49765333981000008380, 4956999999999999740), (734999999999999986700, 49598530667374998160, 4956999999999999740),
   (739999999999999991100, 49431095031999987550, 4956999999999999740), (744999999999999995600, 49263003969624987730, 4956999999999999740),
   (750000000000000000000, 49094234375000000980, 4956999999999999740), (755000000000000004400, 48924763142875002940, 4956999999999999740),
   (760000000000000008900, 48754567167999995900, 4956999999999999740), (765000000000000013300, 48583623345124991030, 4956999999999999740),
   (770000000000000017800, 48411908568999999500, 4956999999999999740), (775000000000000022200, 48239399734374988070, 4956999999999999740),
   (780000000000000026600, 48066073735999994550, 4956999999999999740), (785000000000000031100, 47891907468624994590, 4956999999999999740),
   (790000000000000035500, 47716877826999999360, 4956999999999999740), (795000000000000040000, 47540961705875002250, 4956999999999999740),
   (800000000000000044400, 47364135999999987800, 4956999999999999740), (805000000000000048800, 47186377604124984940, 4956999999999999740),
   (810000000000000053300, 47007663412999995960, 4956999999999999740), (815000000000000057700, 46827970321374987610, 4956999999999999740),
   (820000000000000062200, 46647275224000006590, 4956999999999999740), (825000000000000066600, 46465555015625001900, 4956999999999999740),
   (830000000000000071100, 46282786590999984710, 4956999999999999740), (834999999999999964500, 46098946844875010600, 4956999999999999740),
   (839999999999999968900, 45914012672000001910, 4956999999999999740), (844999999999999973400, 45727960967124987590, 4956999999999999740),
   (849999999999999977800, 45540768624999996560, 4956999999999999740), (854999999999999982200, 45352412540374995590, 4956999999999999740),
   (859999999999999986700, 45162869607999986950, 4956999999999999740), (864999999999999991100, 44972116722624999600, 4956999999999999740),
   (869999999999999995600, 44780130779000000270, 4956999999999999740), (875000000000000000000, 44586888671875000160, 4956999999999999740),
   (880000000000000004400, 44392367295999992650, 4956999999999999740), (885000000000000008900, 44196543546124997800, 4956999999999999740),
   (890000000000000013300, 43999394317000000140, 4956999999999999740), (895000000000000017800, 39918779999999998150, 4956999999999999740),
   (900000000000000022200, 39844600000000003350, 4956999999999999740), (905000000000000026600, 39770419999999999660, 4956999999999999740),
   (910000000000000031100, 39422819999999991760, 4956999999999999740), (915000000000000035500, 39021329999999987410, 4956999999999999740),
   (920000000000000040000, 38619839999999991950, 4956999999999999740), (925000000000000044400, 38218349999999987610, 4956999999999999740),
   (930000000000000048800, 37816859999999992150, 4956999999999999740), (935000000000000053300, 37415369999999992250, 4956999999999999740),
   (940000000000000057700, 35326699999999995330, 4956999999999999740), (945000000000000062200, 35136474999999998130, 4956999999999999740),
   (950000000000000066600, 34946249999999996480, 4956999999999999740), (955000000000000071100, 34756024999999994840, 4956999999999999740),
   (959999999999999964500, 34565800000000002080, 4956999999999999740), (964999999999999968900, 34375575000000000440, 4956999999999999740),
   (969999999999999973400, 33626279999999995060, 4956999999999999740), (974999999999999977800, 33660899999999998040, 4956999999999999740),
   (979999999999999982200, 33695519999999996590, 4956999999999999740), (984999999999999986700, 33730139999999995130, 4956999999999999740),
   (989999999999999991100, 33764759999999998110, 4956999999999999740), (994999999999999995600, 33799380000000001090, 4956999999999999740)]

def premRows2 : List (Nat × Nat × Nat) := [
   (1000000000000000000000, 10200000000000000180, 4956999999999999740)]

/-- data/astro/EARTH_MODEL_PREM.dat: radius in units of 10^-21, density and electron fraction in units of 10^-19. -/
def premRows : List (Nat × Nat × Nat) :=
  premRows0 ++ premRows1 ++ premRows2

def sunRows0 : List (Nat × Nat × Nat) := [
   (161, 1505000000, 36462), (172, 1505000000, 36462), (182, 1505000000, 36463), (191, 1505000000, 36464), (200, 1504000000, 36464),
   (208, 1504000000, 36465), (215, 1504000000, 36466), (222, 1504000000, 36466), (228, 1504000000, 36467), (235, 1504000000, 36468),
   (241, 1504000000, 36468), (246, 1504000000, 36469), (252, 1504000000, 36470), (257, 1504000000, 36470), (262, 1504000000, 36471),
   (267, 1504000000, 36472), (271, 1504000000, 36472), (276, 1504000000, 36473), (280, 1504000000, 36474), (285, 1504000000, 36474),
   (289, 1504000000, 36475), (293, 1504000000, 36476), (297, 1504000000, 36476), (301, 1504000000, 36477), (305, 1504000000, 36477),
   (309, 1504000000, 36478), (313, 1504000000, 36479), (317, 1504000000, 36479), (320, 1504000000, 36480), (324, 1504000000, 36481),
   (328, 1504000000, 36481), (331, 1504000000, 36482), (333, 1504000000, 36482), (337, 1504000000, 36483), (341, 1504000000, 36484),
   (344, 1504000000, 36484), (347, 1504000000, 36485), (350, 1504000000, 36485), (353, 1504000000, 36486), (356, 1504000000, 36487),
   (359, 1504000000, 36487), (363, 1504000000, 36488), (366, 1503000000, 36489), (369, 1503000000, 36489), (373, 1503000000, 36490),
   (375, 1503000000, 36491), (378, 1503000000, 36491), (380, 1503000000, 36492), (382, 1503000000, 36492), (385, 1503000000, 36493),
   (387, 1503000000, 36493), (389, 1503000000, 36494), (392, 1503000000, 36494), (394, 1503000000, 36495), (397, 1503000000, 36495),
   (399, 1503000000, 36496), (402, 1503000000, 36496), (404, 1503000000, 36497), (407, 1503000000, 36497), (409, 1503000000, 36498),
   (412, 1503000000, 36499), (414, 1503000000, 36499), (417, 1503000000, 36500), (419, 1503000000, 36500), (422, 1503000000, 36501),
   (425, 1503000000, 36502), (427, 1503000000, 36502), (430, 1503000000, 36503), (433, 1503000000, 36504), (435, 1503000000, 36504),
   (438, 1503000000, 36505), (441, 1503000000, 36506), (443, 1503000000, 36506), (446, 1503000000, 36507), (449, 1503000000, 36508),
   (452, 1503000000, 36508), (455, 1503000000, 36509), (457, 1503000000, 36510), (460, 1503000000, 36511), (463, 1503000000, 36511),
   (466, 1503000000, 36512), (469, 1503000000, 36513), (470, 1503000000, 36513), (472, 1503000000, 36514), (473, 1502000000, 36514),
   (475, 1502000000, 36515), (476, 1502000000, 36515), (478, 1502000000, 36515), (479, 1502000000, 36516), (481, 1502000000, 36516),
   (482, 1502000000, 36517), (484, 1502000000, 36517), (485, 1502000000, 36517), (487, 1502000000, 36518), (488, 1502000000, 36518),
   (490, 1502000000, 36519), (491, 1502000000, 36519), (493, 1502000000, 36519), (494, 1502000000, 36520), (496, 1502000000, 36520)]

def sunRows1 : List (Nat × Nat × Nat) := [
   (497, 1502000000, 36521), (499, 1502000000, 36521), (500, 1502000000, 36522), (502, 1502000000, 36522), (503, 1502000000, 36522),
   (505, 1502000000, 36523), (507, 1502000000, 36523), (508, 1502000000, 36524), (510, 1502000000, 36524), (511, 1502000000, 36525),
   (513, 1502000000, 36525), (514, 1502000000, 36526), (516, 1502000000, 36526), (517, 1502000000, 36527), (519, 1502000000, 36527),
   (521, 1502000000, 36528), (522, 1502000000, 36528), (524, 1502000000, 36529), (526, 1502000000, 36529), (527, 1502000000, 36529),
   (529, 1502000000, 36530), (530, 1502000000, 36530), (532, 1502000000, 36531), (534, 1502000000, 36531), (535, 1502000000, 36532),
   (537, 1502000000, 36533), (539, 1502000000, 36533), (540, 1502000000, 36534), (542, 1502000000, 36534), (544, 1502000000, 36535),
   (545, 1502000000, 36535), (547, 1502000000, 36536), (549, 1502000000, 36536), (550, 1502000000, 36537), (552, 1502000000, 36537),
   (554, 1502000000, 36538), (555, 1502000000, 36538), (557, 1502000000, 36539), (559, 1502000000, 36539), (561, 1501000000, 36540),
   (562, 1501000000, 36541), (564, 1501000000, 36541), (566, 1501000000, 36542), (567, 1501000000, 36542), (569, 1501000000, 36543),
   (571, 1501000000, 36543), (573, 1501000000, 36544), (575, 1501000000, 36545), (576, 1501000000, 36545), (578, 1501000000, 36546),
   (580, 1501000000, 36546), (582, 1501000000, 36547), (583, 1501000000, 36547), (585, 1501000000, 36548), (587, 1501000000, 36549),
   (589, 1501000000, 36549), (591, 1501000000, 36550), (593, 1501000000, 36551), (594, 1501000000, 36551), (596, 1501000000, 36552),
   (598, 1501000000, 36552), (600, 1501000000, 36553), (602, 1501000000, 36554), (604, 1501000000, 36554), (605, 1501000000, 36555),
   (607, 1501000000, 36556), (609, 1501000000, 36556), (611, 1501000000, 36557), (613, 1501000000, 36558), (615, 1501000000, 36558),
   (617, 1501000000, 36559), (619, 1501000000, 36560), (621, 1501000000, 36560), (622, 1501000000, 36561), (624, 1501000000, 36562),
   (626, 1501000000, 36562), (628, 1501000000, 36563), (630, 1501000000, 36564), (632, 1501000000, 36564), (634, 1501000000, 36565),
   (636, 1501000000, 36566), (638, 1500000000, 36567), (640, 1500000000, 36567), (642, 1500000000, 36568), (644, 1500000000, 36569),
   (646, 1500000000, 36570), (648, 1500000000, 36570), (650, 1500000000, 36571), (652, 1500000000, 36572), (654, 1500000000, 36573),
   (656, 1500000000, 36573), (658, 1500000000, 36574), (660, 1500000000, 36575), (661, 1500000000, 36575), (663, 1500000000, 36576),
   (665, 1500000000, 36577), (667, 1500000000, 36578), (669, 1500000000, 36578), (671, 1500000000, 36579), (675, 1500000000, 36581)]

def sunRows2 : List (Nat × Nat × Nat) := [
   (679, 1500000000, 36582), (681, 1500000000, 36583), (684, 1500000000, 36584), (686, 1500000000, 36585), (690, 1500000000, 36586),
   (692, 1500000000, 36587), (695, 1500000000, 36589), (697, 1500000000, 36589), (701, 1500000000, 36591), (704, 1499000000, 36592),
   (706, 1499000000, 36593), (710, 1499000000, 36595), (712, 1499000000, 36596), (715, 1499000000, 36597), (717, 1499000000, 36598),
   (719, 1499000000, 36598), (721, 1499000000, 36599), (724, 1499000000, 36600), (726, 1499000000, 36601), (728, 1499000000, 36602),
   (732, 1499000000, 36604), (734, 1499000000, 36605), (738, 1499000000, 36606), (740, 1499000000, 36607), (744, 1499000000, 36609),
   (746, 1499000000, 36610), (749, 1499000000, 36611), (751, 1499000000, 36612), (754, 1499000000, 36613), (758, 1499000000, 36615),
   (763, 1499000000, 36617), (767, 1498000000, 36619), (769, 1498000000, 36620), (773, 1498000000, 36622), (775, 1498000000, 36623),
   (780, 1498000000, 36625), (782, 1498000000, 36626), (785, 1498000000, 36627), (787, 1498000000, 36628), (792, 1498000000, 36630),
   (795, 1498000000, 36631), (799, 1498000000, 36634), (802, 1498000000, 36635), (807, 1498000000, 36637), (812, 1498000000, 36640),
   (815, 1498000000, 36641), (820, 1498000000, 36643), (822, 1497000000, 36644), (828, 1497000000, 36647), (830, 1497000000, 36648),
   (835, 1497000000, 36651), (840, 1497000000, 36653), (843, 1497000000, 36654), (849, 1497000000, 36657), (851, 1497000000, 36658),
   (856, 1497000000, 36661), (862, 1497000000, 36664), (865, 1497000000, 36665), (870, 1497000000, 36668), (876, 1497000000, 36671),
   (878, 1496000000, 36672), (884, 1496000000, 36675), (886, 1496000000, 36676), (892, 1496000000, 36679), (898, 1496000000, 36682),
   (900, 1496000000, 36683), (906, 1496000000, 36686), (909, 1496000000, 36688), (915, 1496000000, 36691), (921, 1496000000, 36694),
   (923, 1496000000, 36695), (929, 1495000000, 36698), (932, 1495000000, 36700), (938, 1495000000, 36703), (944, 1495000000, 36706),
   (947, 1495000000, 36708), (953, 1495000000, 36711), (956, 1495000000, 36713), (962, 1495000000, 36716), (968, 1495000000, 36720),
   (971, 1495000000, 36721), (977, 1494000000, 36725), (980, 1494000000, 36727), (986, 1494000000, 36730), (992, 1494000000, 36734),
   (996, 1494000000, 36735), (1002, 1494000000, 36739), (1005, 1494000000, 36741), (1011, 1494000000, 36745), (1018, 1494000000, 36748),
   (1021, 1493000000, 36750), (1027, 1493000000, 36754), (1030, 1493000000, 36756), (1037, 1493000000, 36760), (1044, 1493000000, 36764),
   (1047, 1493000000, 36766), (1053, 1493000000, 36770), (1057, 1493000000, 36772), (1063, 1492000000, 36776), (1070, 1492000000, 36780)]

def sunRows3 : List (Nat × Nat × Nat) := [
   (1073, 1492000000, 36782), (1080, 1492000000, 36786), (1083, 1492000000, 36788), (1090, 1492000000, 36792), (1097, 1492000000, 36797),
   (1100, 1492000000, 36799), (1107, 1491000000, 36803), (1110, 1491000000, 36805), (1118, 1491000000, 36810), (1124, 1491000000, 36814),
   (1128, 1491000000, 36816), (1135, 1491000000, 36821), (1138, 1491000000, 36823), (1146, 1491000000, 36828), (1153, 1490000000, 36833),
   (1156, 1490000000, 36835), (1163, 1490000000, 36840), (1167, 1490000000, 36842), (1174, 1490000000, 36847), (1182, 1490000000, 36852),
   (1185, 1489000000, 36855), (1193, 1489000000, 36860), (1196, 1489000000, 36862), (1204, 1489000000, 36868), (1212, 1489000000, 36873),
   (1215, 1489000000, 36875), (1223, 1489000000, 36881), (1227, 1488000000, 36883), (1234, 1488000000, 36889), (1242, 1488000000, 36894),
   (1246, 1488000000, 36897), (1254, 1488000000, 36903), (1258, 1488000000, 36905), (1266, 1487000000, 36911), (1270, 1487000000, 36914),
   (1277, 1487000000, 36920), (1285, 1487000000, 36926), (1289, 1487000000, 36929), (1297, 1486000000, 36935), (1305, 1486000000, 36941),
   (1309, 1486000000, 36944), (1317, 1486000000, 36950), (1321, 1486000000, 36953), (1330, 1486000000, 36959), (1338, 1485000000, 36965),
   (1342, 1485000000, 36968), (1350, 1485000000, 36974), (1354, 1485000000, 36978), (1362, 1485000000, 36984), (1370, 1484000000, 36991),
   (1382, 1484000000, 37000), (1387, 1484000000, 37003), (1395, 1484000000, 37010), (1403, 1483000000, 37017), (1416, 1483000000, 37027),
   (1428, 1483000000, 37037), (1436, 1482000000, 37044), (1449, 1482000000, 37054), (1461, 1482000000, 37064), (1470, 1481000000, 37071),
   (1482, 1481000000, 37082), (1494, 1481000000, 37092), (1498, 1480000000, 37096), (1510, 1480000000, 37106), (1518, 1480000000, 37112),
   (1528, 1479000000, 37122), (1540, 1479000000, 37132), (1550, 1479000000, 37141), (1557, 1478000000, 37146), (1570, 1478000000, 37159),
   (1579, 1478000000, 37167), (1593, 1477000000, 37179), (1606, 1477000000, 37191), (1616, 1476000000, 37200), (1629, 1476000000, 37212),
   (1643, 1476000000, 37225), (1652, 1475000000, 37234), (1666, 1475000000, 37247), (1680, 1474000000, 37260), (1689, 1474000000, 37269),
   (1703, 1473000000, 37282), (1717, 1473000000, 37296), (1727, 1472000000, 37305), (1741, 1472000000, 37319), (1755, 1471000000, 37334),
   (1765, 1471000000, 37343), (1779, 1471000000, 37357), (1793, 1470000000, 37372), (1803, 1470000000, 37382), (1817, 1469000000, 37396),
   (1832, 1469000000, 37412), (1842, 1468000000, 37422), (1856, 1468000000, 37437), (1871, 1467000000, 37452), (1880, 1467000000, 37462),
   (1895, 1466000000, 37478), (1910, 1465000000, 37494), (1920, 1465000000, 37505), (1934, 1464000000, 37521), (1950, 1464000000, 37537)]

def sunRows4 : List (Nat × Nat × Nat) := [
   (1960, 1463000000, 37548), (1980, 1463000000, 37570), (1995, 1462000000, 37587), (2005, 1462000000, 37599), (2020, 1461000000, 37616),
   (2041, 1460000000, 37639), (2056, 1459000000, 37657), (2071, 1459000000, 37675), (2082, 1458000000, 37687), (2097, 1458000000, 37705),
   (2113, 1457000000, 37724), (2124, 1456000000, 37736), (2139, 1456000000, 37755), (2155, 1455000000, 37774), (2166, 1454000000, 37787),
   (2182, 1454000000, 37806), (2198, 1453000000, 37826), (2209, 1453000000, 37839), (2225, 1452000000, 37859), (2241, 1451000000, 37879),
   (2268, 1450000000, 37913), (2285, 1449000000, 37935), (2312, 1448000000, 37969), (2329, 1447000000, 37991), (2356, 1446000000, 38027),
   (2373, 1445000000, 38049), (2401, 1443000000, 38085), (2418, 1443000000, 38108), (2446, 1441000000, 38146), (2463, 1440000000, 38169),
   (2492, 1439000000, 38208), (2509, 1438000000, 38232), (2538, 1437000000, 38272), (2556, 1436000000, 38297), (2585, 1434000000, 38338),
   (2603, 1433000000, 38364), (2632, 1432000000, 38406), (2650, 1431000000, 38432), (2680, 1429000000, 38476), (2699, 1428000000, 38503),
   (2735, 1426000000, 38557), (2754, 1425000000, 38585), (2784, 1423000000, 38631), (2816, 1422000000, 38678), (2834, 1421000000, 38707),
   (2860, 1419000000, 38746), (2878, 1418000000, 38775), (2910, 1416000000, 38825), (2935, 1415000000, 38865), (2955, 1414000000, 38895),
   (2986, 1412000000, 38946), (3005, 1411000000, 38977), (3044, 1409000000, 39040), (3065, 1407000000, 39074), (3092, 1406000000, 39118),
   (3113, 1404000000, 39152), (3147, 1402000000, 39210), (3175, 1401000000, 39257), (3217, 1398000000, 39329), (3253, 1396000000, 39389),
   (3274, 1395000000, 39427), (3310, 1392000000, 39489), (3332, 1391000000, 39528), (3368, 1389000000, 39591), (3391, 1387000000, 39631),
   (3428, 1385000000, 39697), (3450, 1383000000, 39738), (3488, 1381000000, 39805), (3511, 1380000000, 39847), (3548, 1377000000, 39917),
   (3594, 1374000000, 40002), (3625, 1372000000, 40059), (3679, 1368000000, 40162), (3719, 1366000000, 40237), (3750, 1364000000, 40297),
   (3798, 1360000000, 40389), (3830, 1358000000, 40453), (3896, 1354000000, 40581), (3928, 1351000000, 40646), (3995, 1347000000, 40779),
   (4029, 1344000000, 40848), (4089, 1340000000, 40970), (4132, 1337000000, 41058), (4202, 1332000000, 41203), (4278, 1326000000, 41362),
   (4345, 1321000000, 41506), (4373, 1319000000, 41565), (4446, 1314000000, 41722), (4492, 1310000000, 41822), (4567, 1305000000, 41987),
   (4596, 1303000000, 42051), (4674, 1297000000, 42222), (4732, 1292000000, 42354), (4817, 1286000000, 42546), (4863, 1282000000, 42650),
   (4935, 1277000000, 42815), (4998, 1272000000, 42960), (5050, 1268000000, 43082), (5136, 1261000000, 43284), (5170, 1258000000, 43363)]

def sunRows5 : List (Nat × Nat × Nat) := [
   (5259, 1251000000, 43574), (5315, 1247000000, 43708), (5395, 1240000000, 43900), (5465, 1235000000, 44069), (5511, 1231000000, 44182),
   (5580, 1225000000, 44351), (5653, 1219000000, 44531), (5744, 1212000000, 44756), (5822, 1206000000, 44950), (5885, 1201000000, 45106),
   (5942, 1196000000, 45250), (5990, 1192000000, 45369), (6053, 1187000000, 45528), (6145, 1179000000, 45763), (6208, 1174000000, 45925),
   (6291, 1167000000, 46135), (6376, 1160000000, 46355), (6469, 1153000000, 46593), (6534, 1147000000, 46761), (6579, 1144000000, 46878),
   (6654, 1137000000, 47075), (6750, 1130000000, 47323), (6819, 1124000000, 47504), (6909, 1116000000, 47738), (6971, 1111000000, 47903),
   (7054, 1104000000, 48122), (7121, 1099000000, 48298), (7213, 1091000000, 48539), (7271, 1087000000, 48691), (7348, 1080000000, 48895),
   (7394, 1077000000, 49017), (7445, 1072000000, 49152), (7516, 1067000000, 49341), (7575, 1062000000, 49495), (7628, 1058000000, 49635),
   (7705, 1051000000, 49839), (7775, 1046000000, 50026), (7865, 1038000000, 50263), (7924, 1034000000, 50418), (7987, 1028000000, 50586),
   (8050, 1023000000, 50751), (8117, 1018000000, 50928), (8193, 1012000000, 51129), (8269, 1006000000, 51328), (8335, 1001000000, 51502),
   (8419, 993900000, 51723), (8476, 989400000, 51871), (8559, 982800000, 52089), (8606, 979200000, 52211), (8671, 974100000, 52381),
   (8717, 970500000, 52501), (8782, 965400000, 52670), (8838, 961100000, 52814), (8912, 955300000, 53005), (8958, 951700000, 53125),
   (9032, 946000000, 53314), (9069, 943200000, 53409), (9133, 938300000, 53572), (9187, 934100000, 53713), (9252, 929200000, 53877),
   (9325, 923700000, 54063), (9408, 917400000, 54272), (9463, 913300000, 54411), (9537, 907700000, 54597), (9573, 905000000, 54689),
   (9629, 900800000, 54827), (9675, 897400000, 54943), (9730, 893300000, 55080), (9772, 890200000, 55184), (9823, 886400000, 55311),
   (9897, 881000000, 55493), (9944, 877500000, 55608), (9991, 874100000, 55722), (10066, 868700000, 55904), (10113, 865300000, 56019),
   (10178, 860500000, 56177), (10223, 857300000, 56285), (10301, 851700000, 56473), (10377, 846300000, 56653), (10422, 843100000, 56761),
   (10472, 839600000, 56879), (10539, 834800000, 57036), (10587, 831500000, 57149), (10635, 828100000, 57260), (10712, 822700000, 57440),
   (10750, 820100000, 57529), (10837, 814100000, 57729), (10895, 810100000, 57861), (10971, 804800000, 58036), (11057, 799000000, 58230),
   (11139, 793400000, 58413), (11187, 790200000, 58522), (11239, 786700000, 58638), (11316, 781500000, 58808), (11379, 777400000, 58945),
   (11420, 774600000, 59035), (11471, 771200000, 59147), (11533, 767100000, 59281), (11574, 764400000, 59369), (11657, 759000000, 59547)]

def sunRows6 : List (Nat × Nat × Nat) := [
   (11730, 754300000, 59702), (11782, 750900000, 59811), (11861, 745800000, 59977), (11950, 740100000, 60162), (12040, 734400000, 60349),
   (12120, 729400000, 60511), (12173, 726000000, 60620), (12238, 721900000, 60749), (12318, 716900000, 60911), (12383, 712900000, 61040),
   (12432, 709900000, 61136), (12497, 705800000, 61264), (12585, 700500000, 61434), (12673, 695100000, 61603), (12740, 691100000, 61730),
   (12784, 688500000, 61814), (12845, 684800000, 61929), (12896, 681800000, 62023), (12963, 677800000, 62148), (13013, 674800000, 62241),
   (13076, 671100000, 62355), (13127, 668100000, 62448), (13177, 665200000, 62540), (13252, 660800000, 62674), (13304, 657800000, 62765),
   (13367, 654200000, 62876), (13413, 651500000, 62958), (13494, 646900000, 63099), (13552, 643600000, 63199), (13634, 639000000, 63339),
   (13705, 635000000, 63458), (13787, 630400000, 63596), (13841, 627400000, 63685), (13924, 622800000, 63821), (14014, 617900000, 63967),
   (14062, 615200000, 64045), (14152, 610300000, 64188), (14219, 606700000, 64294), (14309, 601900000, 64435), (14371, 598600000, 64529),
   (14414, 596300000, 64595), (14505, 591500000, 64734), (14567, 588200000, 64826), (14616, 585600000, 64899), (14677, 582400000, 64990),
   (14739, 579200000, 65080), (14788, 576700000, 65151), (14849, 573500000, 65240), (14898, 571000000, 65310), (14959, 567900000, 65397),
   (15056, 563000000, 65531), (15103, 560600000, 65597), (15163, 557600000, 65679), (15221, 554600000, 65758), (15302, 550600000, 65868),
   (15361, 547600000, 65947), (15444, 543600000, 66056), (15495, 541100000, 66122), (15563, 537700000, 66211), (15604, 535700000, 66263),
   (15672, 532400000, 66350), (15713, 530400000, 66401), (15781, 527200000, 66486), (15848, 523900000, 66569), (15902, 521400000, 66635),
   (15963, 518500000, 66709), (16065, 513700000, 66831), (16126, 510800000, 66903), (16227, 506100000, 67021), (16309, 502300000, 67115),
   (16363, 499800000, 67177), (16445, 496000000, 67268), (16549, 491300000, 67383), (16590, 489400000, 67428), (16694, 484800000, 67539),
   (16776, 481100000, 67627), (16833, 478600000, 67686), (16932, 474200000, 67788), (17017, 470500000, 67874), (17059, 468600000, 67917),
   (17144, 464900000, 68001), (17229, 461200000, 68083), (17272, 459400000, 68125), (17360, 455600000, 68208), (17447, 451900000, 68290),
   (17490, 450100000, 68330), (17577, 446400000, 68410), (17621, 444600000, 68450), (17710, 440900000, 68529), (17754, 439000000, 68568),
   (17843, 435400000, 68645), (17931, 431700000, 68721), (18051, 426900000, 68821), (18170, 422100000, 68919), (18291, 417200000, 69016),
   (18412, 412400000, 69111), (18474, 410000000, 69159), (18597, 405200000, 69252), (18659, 402800000, 69298), (18784, 398000000, 69389)]

def sunRows7 : List (Nat × Nat × Nat) := [
   (18846, 395600000, 69433), (18972, 390800000, 69522), (19100, 386100000, 69609), (19163, 383700000, 69652), (19293, 378900000, 69737),
   (19358, 376500000, 69779), (19488, 371800000, 69862), (19587, 368200000, 69923), (19686, 364600000, 69983), (19821, 359900000, 70063),
   (19956, 355100000, 70141), (20092, 350400000, 70217), (20229, 345700000, 70292), (20369, 340900000, 70366), (20510, 336200000, 70439),
   (20651, 331500000, 70509), (20793, 326800000, 70578), (20900, 323400000, 70628), (21006, 320000000, 70677), (21180, 314400000, 70756),
   (21355, 308900000, 70831), (21511, 304100000, 70896), (21663, 299400000, 70958), (21816, 294800000, 71017), (21962, 290400000, 71072),
   (22107, 286200000, 71126), (22357, 278900000, 71213), (22607, 271800000, 71296), (22830, 265600000, 71366), (23006, 260800000, 71419),
   (23183, 256000000, 71470), (23358, 251400000, 71518), (23526, 247000000, 71563), (23694, 242700000, 71606), (23944, 236400000, 71667),
   (24195, 230200000, 71724), (24364, 226100000, 71761), (24533, 222100000, 71797), (24705, 218100000, 71831), (24877, 214100000, 71864),
   (25051, 210100000, 71896), (25226, 206200000, 71927), (25583, 198400000, 71986), (25947, 190800000, 72041), (26320, 183200000, 72093),
   (26701, 175700000, 72143), (27092, 168300000, 72191), (27494, 161100000, 72238), (27906, 153900000, 72286), (28330, 146800000, 72334),
   (28767, 139800000, 72382), (29218, 132900000, 72430), (29684, 126100000, 72477), (30165, 119500000, 72524), (30662, 112900000, 72568),
   (31139, 107000000, 72608), (31578, 101800000, 72643), (31963, 97440000, 72671), (32288, 93900000, 72694), (32567, 90970000, 72713),
   (32866, 87920000, 72732), (33340, 83300000, 72760), (33676, 80180000, 72779), (34224, 75330000, 72809), (34832, 70290000, 72839),
   (35463, 65420000, 72868), (36119, 60710000, 72896), (36805, 56170000, 72923), (37516, 51820000, 72950), (38169, 48140000, 72974),
   (38712, 45280000, 72993), (39138, 43170000, 73007), (39452, 41670000, 73018), (39779, 40170000, 73029), (40017, 39120000, 73036),
   (40357, 37660000, 73047), (40766, 35980000, 73060), (41180, 34360000, 73073), (41605, 32780000, 73085), (41918, 31670000, 73095),
   (42236, 30570000, 73104), (42677, 29120000, 73116), (43061, 27920000, 73127), (43453, 26740000, 73138), (44195, 24660000, 73158),
   (44938, 22750000, 73177), (45312, 21850000, 73187), (45695, 20970000, 73197), (46071, 20140000, 73207), (46458, 19320000, 73217),
   (46864, 18500000, 73228), (47282, 17690000, 73238), (48022, 16360000, 73257), (48532, 15500000, 73270), (48832, 15020000, 73278),
   (49164, 14510000, 73286), (49475, 14040000, 73294), (50184, 13040000, 73312), (50848, 12170000, 73329), (51488, 11400000, 73345)]

def sunRows8 : List (Nat × Nat × Nat) := [
   (52115, 10690000, 73360), (52731, 10040000, 73375), (53337, 9441000, 73390), (53933, 8890000, 73405), (54519, 8382000, 73420),
   (55096, 7914000, 73434), (55662, 7481000, 73448), (56219, 7080000, 73462), (56765, 6710000, 73476), (57302, 6366000, 73489),
   (57828, 6048000, 73502), (58342, 5754000, 73515), (58844, 5481000, 73527), (59331, 5231000, 73538), (59794, 5004000, 73548),
   (60223, 4803000, 73558), (60601, 4633000, 73566), (60937, 4488000, 73573), (61445, 4278000, 73582), (61755, 4155000, 73588),
   (62194, 3988000, 73595), (62634, 3827000, 73602), (63067, 3676000, 73609), (63492, 3534000, 73614), (63908, 3401000, 73620),
   (64315, 3276000, 73627), (64513, 3217000, 73631), (64712, 3159000, 73635), (64905, 3104000, 73639), (65099, 3049000, 73645),
   (65286, 2998000, 73651), (65474, 2947000, 73658), (65651, 2900000, 73666), (65829, 2854000, 73676), (66075, 2791000, 73690),
   (66325, 2729000, 73709), (66498, 2686000, 73724), (66718, 2634000, 73745), (66829, 2608000, 73758), (66977, 2573000, 73775),
   (67126, 2539000, 73795), (67308, 2498000, 73822), (67399, 2477000, 73836), (67491, 2457000, 73852), (67598, 2434000, 73871),
   (67705, 2411000, 73891), (67812, 2388000, 73912), (67921, 2365000, 73935), (68043, 2339000, 73961), (68125, 2322000, 73980),
   (68249, 2297000, 74010), (68351, 2276000, 74036), (68420, 2262000, 74054), (68524, 2241000, 74081), (68628, 2220000, 74110),
   (68698, 2207000, 74130), (68804, 2186000, 74161), (68884, 2171000, 74185), (68937, 2161000, 74201), (69017, 2145000, 74225),
   (69071, 2135000, 74242), (69152, 2120000, 74268), (69234, 2105000, 74294), (69288, 2094000, 74312), (69370, 2079000, 74339),
   (69425, 2069000, 74357), (69452, 2064000, 74366), (69507, 2054000, 74385), (69534, 2050000, 74394), (69590, 2040000, 74413),
   (69645, 2030000, 74433), (69673, 2025000, 74442), (69728, 2015000, 74462), (69784, 2005000, 74482), (69812, 2000000, 74492),
   (69868, 1990000, 74512), (69896, 1985000, 74523), (69953, 1976000, 74543), (69981, 1971000, 74554), (70009, 1966000, 74564),
   (70038, 1961000, 74575), (70066, 1956000, 74585), (70095, 1951000, 74596), (70123, 1946000, 74607), (70151, 1942000, 74617),
   (70178, 1937000, 74628), (70206, 1932000, 74638), (70234, 1928000, 74649), (70262, 1923000, 74660), (70289, 1918000, 74671),
   (70317, 1914000, 74681), (70345, 1909000, 74692), (70373, 1904000, 74703), (70401, 1900000, 74714), (70429, 1895000, 74725),
   (70457, 1891000, 74737), (70486, 1886000, 74748), (70514, 1881000, 74759), (70542, 1877000, 74770), (70570, 1872000, 74782)]

def sunRows9 : List (Nat × Nat × Nat) := [
   (70608, 1866000, 74797), (70646, 1860000, 74812), (70684, 1854000, 74828), (70722, 1848000, 74844), (70746, 1844000, 74854),
   (70770, 1840000, 74864), (70794, 1836000, 74874), (70819, 1832000, 74884), (70843, 1829000, 74894), (70867, 1825000, 74904),
   (70891, 1821000, 74914), (70916, 1817000, 74924), (70940, 1813000, 74935), (70964, 1810000, 74945), (70989, 1806000, 74955),
   (71013, 1802000, 74966), (71038, 1798000, 74976), (71062, 1795000, 74987), (71087, 1791000, 74997), (71111, 1787000, 75008),
   (71136, 1783000, 75018), (71160, 1779000, 75029), (71185, 1776000, 75040), (71210, 1772000, 75051), (71235, 1768000, 75062),
   (71259, 1765000, 75072), (71284, 1761000, 75083), (71309, 1757000, 75094), (71334, 1753000, 75105), (71359, 1750000, 75116),
   (71384, 1746000, 75128), (71409, 1742000, 75139), (71434, 1739000, 75150), (71459, 1735000, 75161), (71484, 1731000, 75173),
   (71509, 1727000, 75184), (71532, 1724000, 75194), (71556, 1721000, 75205), (71579, 1717000, 75216), (71602, 1714000, 75226),
   (71626, 1711000, 75237), (71649, 1707000, 75248), (71672, 1704000, 75259), (71696, 1701000, 75269), (71719, 1697000, 75280),
   (71743, 1694000, 75291), (71766, 1690000, 75302), (71790, 1687000, 75313), (71813, 1684000, 75324), (71837, 1681000, 75335),
   (71861, 1677000, 75346), (71884, 1674000, 75358), (71908, 1671000, 75369), (71932, 1667000, 75380), (71955, 1664000, 75391),
   (71979, 1661000, 75403), (72003, 1657000, 75414), (72027, 1654000, 75426), (72051, 1651000, 75437), (72075, 1648000, 75449),
   (72099, 1644000, 75461), (72123, 1641000, 75472), (72147, 1638000, 75484), (72171, 1634000, 75496), (72195, 1631000, 75508),
   (72219, 1628000, 75520), (72243, 1625000, 75531), (72267, 1622000, 75544), (72290, 1619000, 75555), (72312, 1616000, 75566),
   (72335, 1613000, 75577), (72357, 1610000, 75589), (72380, 1607000, 75600), (72402, 1604000, 75611), (72425, 1601000, 75623),
   (72447, 1598000, 75635), (72470, 1595000, 75646), (72492, 1592000, 75658), (72515, 1589000, 75670), (72538, 1586000, 75682),
   (72561, 1583000, 75693), (72583, 1580000, 75705), (72606, 1577000, 75717), (72629, 1574000, 75729), (72652, 1572000, 75741),
   (72675, 1569000, 75753), (72720, 1563000, 75776), (72743, 1560000, 75788), (72789, 1554000, 75812), (72824, 1550000, 75830),
   (72859, 1546000, 75830), (72893, 1542000, 75830), (72928, 1538000, 75830), (72974, 1532000, 75830), (73041, 1525000, 75830),
   (73105, 1517000, 75830), (73148, 1512000, 75830), (73213, 1505000, 75830), (73257, 1500000, 75830), (73322, 1492000, 75830)]

def sunRows10 : List (Nat × Nat × Nat) := [
   (73344, 1490000, 75830), (73409, 1482000, 75830), (73453, 1477000, 75830), (73519, 1470000, 75830), (73585, 1462000, 75830),
   (73630, 1457000, 75830), (73696, 1450000, 75830), (73740, 1445000, 75830), (73805, 1437000, 75830), (73849, 1432000, 75830),
   (73914, 1425000, 75830), (74002, 1415000, 75830), (74046, 1411000, 75830), (74113, 1403000, 75830), (74179, 1396000, 75830),
   (74224, 1391000, 75830), (74290, 1384000, 75830), (74335, 1379000, 75830), (74403, 1371000, 75830), (74490, 1362000, 75830),
   (74579, 1352000, 75830), (74667, 1343000, 75830), (74726, 1337000, 75830), (74816, 1327000, 75830), (74916, 1317000, 75830),
   (74996, 1308000, 75830), (75069, 1300000, 75830), (75135, 1294000, 75830), (75201, 1287000, 75830), (75300, 1276000, 75830),
   (75367, 1269000, 75830), (75467, 1259000, 75830), (75568, 1249000, 75830), (75645, 1241000, 75830), (75723, 1233000, 75830),
   (75839, 1221000, 75830), (75957, 1209000, 75830), (76035, 1202000, 75830), (76154, 1190000, 75830), (76231, 1182000, 75830),
   (76306, 1175000, 75830), (76418, 1164000, 75830), (76493, 1157000, 75830), (76607, 1145000, 75830), (76683, 1138000, 75830),
   (76798, 1127000, 75830), (76870, 1120000, 75830), (76942, 1113000, 75830), (77014, 1107000, 75830), (77087, 1100000, 75830),
   (77160, 1093000, 75830), (77234, 1086000, 75830), (77307, 1079000, 75830), (77451, 1066000, 75830), (77591, 1053000, 75830),
   (77732, 1040000, 75830), (77803, 1033000, 75830), (77946, 1021000, 75830), (78080, 1008000, 75830), (78216, 996400, 75830),
   (78353, 984200, 75830), (78492, 972100, 75830), (78622, 960700, 75830), (78754, 949300, 75830), (78887, 937900, 75830),
   (79021, 926500, 75830), (79146, 915900, 75830), (79272, 905300, 75830), (79399, 894700, 75830), (79528, 884000, 75830),
   (79649, 874100, 75830), (79772, 864000, 75830), (79895, 854000, 75830), (80020, 844000, 75830), (80138, 834500, 75830),
   (80256, 825100, 75830), (80376, 815600, 75830), (80497, 806100, 75830), (80611, 797200, 75830), (80727, 788300, 75830),
   (80843, 779300, 75830), (80960, 770400, 75830), (81183, 753500, 75830), (81410, 736500, 75830), (81626, 720600, 75830),
   (81847, 704500, 75830), (82057, 689400, 75830), (82271, 674100, 75830), (82476, 659800, 75830), (82684, 645300, 75830),
   (82882, 631700, 75830), (83085, 618000, 75830), (83278, 605100, 75830), (83475, 592100, 75830), (83663, 579700, 75830),
   (83854, 567400, 75830), (84037, 555700, 75830), (84223, 543900, 75830), (84400, 532900, 75830), (84579, 521800, 75830)]

def sunRows11 : List (Nat × Nat × Nat) := [
   (84751, 511300, 75830), (84926, 500700, 75830), (85093, 490700, 75830), (85263, 480700, 75830), (85426, 471100, 75830),
   (85591, 461500, 75830), (85750, 452400, 75830), (85911, 443300, 75830), (86066, 434600, 75830), (86223, 425800, 75830),
   (86374, 417500, 75830), (86527, 409200, 75830), (86674, 401300, 75830), (86823, 393300, 75830), (86966, 385700, 75830),
   (87112, 378100, 75830), (87252, 370800, 75830), (87393, 363500, 75830), (87530, 356600, 75830), (87668, 349600, 75830),
   (87801, 343000, 75830), (87936, 336300, 75830), (88064, 330100, 75830), (88194, 323700, 75830), (88319, 317700, 75830),
   (88446, 311700, 75830), (88568, 305900, 75830), (88692, 300100, 75830), (88812, 294600, 75830), (88933, 289000, 75830),
   (89049, 283700, 75830), (89167, 278400, 75830), (89280, 273300, 75830), (89396, 268200, 75830), (89506, 263300, 75830),
   (89619, 258400, 75830), (89727, 253700, 75830), (89837, 249000, 75830), (89942, 244500, 75830), (90050, 240000, 75830),
   (90153, 235700, 75830), (90258, 231300, 75830), (90358, 227200, 75830), (90460, 223000, 75830), (90559, 219100, 75830),
   (90658, 215100, 75830), (90757, 211100, 75830), (90856, 207200, 75830), (90985, 202200, 75830), (91134, 196400, 75830),
   (91227, 192900, 75830), (91322, 189300, 75830), (91413, 185900, 75830), (91505, 182400, 75830), (91594, 179100, 75830),
   (91685, 175800, 75830), (91771, 172600, 75830), (91859, 169500, 75830), (91944, 166400, 75830), (92030, 163400, 75830),
   (92113, 160500, 75830), (92197, 157500, 75830), (92277, 154700, 75830), (92358, 151900, 75830), (92436, 149300, 75830),
   (92516, 146600, 75830), (92592, 144000, 75830), (92669, 141400, 75830), (92744, 139000, 75830), (92819, 136500, 75830),
   (92892, 134100, 75830), (92966, 131700, 75830), (93037, 129400, 75830), (93110, 127100, 75830), (93179, 124900, 75830),
   (93250, 122700, 75830), (93317, 120500, 75830), (93386, 118400, 75830), (93453, 116400, 75830), (93520, 114300, 75830),
   (93585, 112300, 75830), (93651, 110400, 75830), (93714, 108500, 75830), (93778, 106500, 75830), (93840, 104700, 75830),
   (93903, 102900, 75830), (93963, 101100, 75830), (94024, 99380, 75830), (94082, 97700, 75830), (94142, 96010, 75830),
   (94199, 94390, 75830), (94257, 92760, 75830), (94313, 91200, 75830), (94370, 89620, 75830), (94425, 88120, 75830),
   (94480, 86600, 75830), (94534, 85150, 75830), (94588, 83680, 75830), (94640, 82280, 75830), (94693, 80870, 75830)]

def sunRows12 : List (Nat × Nat × Nat) := [
   (94744, 79520, 75830), (94796, 78160, 75830), (94846, 76860, 75830), (94897, 75540, 75830), (94946, 74290, 75830),
   (94995, 73020, 75830), (95043, 71800, 75830), (95092, 70580, 75830), (95138, 69410, 75830), (95186, 68230, 75830),
   (95231, 67110, 75830), (95277, 65980, 75830), (95321, 64900, 75830), (95366, 63810, 75830), (95410, 62760, 75830),
   (95454, 61710, 75830), (95496, 60700, 75830), (95539, 59690, 75830), (95580, 58710, 75830), (95623, 57730, 75830),
   (95663, 56790, 75830), (95704, 55840, 75830), (95744, 54930, 75830), (95784, 54020, 75830), (95823, 53140, 75830),
   (95862, 52250, 75830), (95900, 51400, 75830), (95939, 50550, 75830), (96014, 48900, 75830), (96087, 47310, 75830),
   (96159, 45770, 75830), (96194, 45010, 75830), (96230, 44250, 75830), (96278, 43250, 75830), (96307, 42650, 75830),
   (96341, 41940, 75830), (96376, 41220, 75830), (96409, 40540, 75830), (96443, 39840, 75830), (96476, 39180, 75830),
   (96510, 38510, 75830), (96574, 37230, 75830), (96636, 36000, 75830), (96698, 34810, 75830), (96758, 33660, 75830),
   (96816, 32540, 75830), (96874, 31470, 75830), (96930, 30420, 75830), (96985, 29420, 75830), (97039, 28440, 75830),
   (97092, 27500, 75830), (97144, 26590, 75830), (97194, 25700, 75830), (97244, 24860, 75830), (97292, 24040, 75830),
   (97339, 23250, 75830), (97385, 22480, 75830), (97430, 21750, 75830), (97473, 21040, 75830), (97516, 20350, 75830),
   (97558, 19690, 75830), (97600, 19050, 75830), (97640, 18420, 75830), (97680, 17820, 75830), (97719, 17230, 75830),
   (97758, 16660, 75830), (97795, 16120, 75830), (97832, 15590, 75830), (97868, 15080, 75830), (97903, 14580, 75830),
   (97938, 14110, 75830), (97972, 13650, 75830), (98005, 13200, 75830), (98038, 12770, 75830), (98070, 12350, 75830),
   (98101, 11950, 75830), (98132, 11560, 75830), (98162, 11190, 75830), (98191, 10830, 75830), (98220, 10490, 75830),
   (98249, 10140, 75830), (98261, 9997, 75830), (98280, 9777, 75830), (98308, 9457, 75830)]

/-- data/astro/bs05_agsop.dat, columns 1, 3 and 6 (the ones body.cpp 463-467 and 565-569 take): radius in units of 10^-5, density in
units of 10^-7, hydrogen fraction in units of 10^-5. -/
def sunRows : List (Nat × Nat × Nat) :=
  sunRows0 ++ sunRows1 ++ sunRows2 ++ sunRows3 ++ sunRows4 ++ sunRows5 ++
  sunRows6 ++ sunRows7 ++ sunRows8 ++ sunRows9 ++ sunRows10 ++ sunRows11 ++
  sunRows12

end Verif.Bodies
