import Verif.Text.Lines

/-!
# The bundled tables

The text of `/repo/src/photometry/passbands/bessell1990/{U,B,V,R,I}.dat`, line by line, and the numbers of
`/repo/src/atmosphere/o3trans.dat` (wavelengths in thousandths of a nanometre, transmittances in ten-thousandths).
-/

namespace Verif.Passband
open Verif.Text

/-- `bessell1990/U.dat`, included by src/photometry/passbands/bessell1990.rs:105. -/
def rawU : Str := unlines [
  "# Source: Bessell 1990, PASP 102, 1181 (UBVRI passbands)".toList,
  "# Retrieved via SVO Filter Profile Service, http://svo2.cab.inta-csic.es/theory/fps/".toList,
  "# Filter ID: Generic/Bessell.U".toList,
  "# Columns: wavelength_nm transmission_dimensionless".toList,
  "# Retrieved: 2026-04-27".toList,
  "# Note: wavelengths converted from Angstrom to nm by dividing by 10.".toList,
  "300.0 0.0000000000".toList,
  "305.0 0.0160000000".toList,
  "310.0 0.0680000000".toList,
  "315.0 0.1670000000".toList,
  "320.0 0.2870000000".toList,
  "325.0 0.4230000000".toList,
  "330.0 0.5600000000".toList,
  "335.0 0.6730000000".toList,
  "340.0 0.7720000000".toList,
  "345.0 0.8410000000".toList,
  "350.0 0.9050000000".toList,
  "355.0 0.9430000000".toList,
  "360.0 0.9810000000".toList,
  "365.0 0.9930000000".toList,
  "370.0 1.0000000000".toList,
  "375.0 0.9890000000".toList,
  "380.0 0.9160000000".toList,
  "385.0 0.8040000000".toList,
  "390.0 0.6250000000".toList,
  "395.0 0.4230000000".toList,
  "400.0 0.2380000000".toList,
  "405.0 0.1140000000".toList,
  "410.0 0.0510000000".toList,
  "415.0 0.0190000000".toList,
  "420.0 0.0000000000".toList]

/-- `bessell1990/B.dat`, included by src/photometry/passbands/bessell1990.rs:106. -/
def rawB : Str := unlines [
  "# Source: Bessell 1990, PASP 102, 1181 (UBVRI passbands)".toList,
  "# Retrieved via SVO Filter Profile Service, http://svo2.cab.inta-csic.es/theory/fps/".toList,
  "# Filter ID: Generic/Bessell.B".toList,
  "# Columns: wavelength_nm transmission_dimensionless".toList,
  "# Retrieved: 2026-04-27".toList,
  "# Note: wavelengths converted from Angstrom to nm by dividing by 10.".toList,
  "360.0 0.0000000000".toList,
  "370.0 0.0300000000".toList,
  "380.0 0.1340000000".toList,
  "390.0 0.5670000000".toList,
  "400.0 0.9200000000".toList,
  "410.0 0.9780000000".toList,
  "420.0 1.0000000000".toList,
  "430.0 0.9780000000".toList,
  "440.0 0.9350000000".toList,
  "450.0 0.8530000000".toList,
  "460.0 0.7400000000".toList,
  "470.0 0.6400000000".toList,
  "480.0 0.5360000000".toList,
  "490.0 0.4240000000".toList,
  "500.0 0.3250000000".toList,
  "510.0 0.2350000000".toList,
  "520.0 0.1500000000".toList,
  "530.0 0.0950000000".toList,
  "540.0 0.0430000000".toList,
  "550.0 0.0090000000".toList,
  "560.0 0.0000000000".toList]

/-- `bessell1990/V.dat`, included by src/photometry/passbands/bessell1990.rs:107. -/
def rawV : Str := unlines [
  "# Source: Bessell 1990, PASP 102, 1181 (UBVRI passbands)".toList,
  "# Retrieved via SVO Filter Profile Service, http://svo2.cab.inta-csic.es/theory/fps/".toList,
  "# Filter ID: Generic/Bessell.V".toList,
  "# Columns: wavelength_nm transmission_dimensionless".toList,
  "# Retrieved: 2026-04-27".toList,
  "# Note: wavelengths converted from Angstrom to nm by dividing by 10.".toList,
  "470.0 0.0000000000".toList,
  "480.0 0.0300000000".toList,
  "490.0 0.1630000000".toList,
  "500.0 0.4580000000".toList,
  "510.0 0.7800000000".toList,
  "520.0 0.9670000000".toList,
  "530.0 1.0000000000".toList,
  "540.0 0.9730000000".toList,
  "550.0 0.8980000000".toList,
  "560.0 0.7920000000".toList,
  "570.0 0.6840000000".toList,
  "580.0 0.5740000000".toList,
  "590.0 0.4610000000".toList,
  "600.0 0.3590000000".toList,
  "610.0 0.2700000000".toList,
  "620.0 0.1970000000".toList,
  "630.0 0.1350000000".toList,
  "640.0 0.0810000000".toList,
  "650.0 0.0450000000".toList,
  "660.0 0.0250000000".toList,
  "670.0 0.0170000000".toList,
  "680.0 0.0130000000".toList,
  "690.0 0.0090000000".toList,
  "700.0 0.0000000000".toList]

/-- `bessell1990/R.dat`, included by src/photometry/passbands/bessell1990.rs:108. -/
def rawR : Str := unlines [
  "# Source: Bessell 1990, PASP 102, 1181 (UBVRI passbands)".toList,
  "# Retrieved via SVO Filter Profile Service, http://svo2.cab.inta-csic.es/theory/fps/".toList,
  "# Filter ID: Generic/Bessell.R".toList,
  "# Columns: wavelength_nm transmission_dimensionless".toList,
  "# Retrieved: 2026-04-27".toList,
  "# Note: wavelengths converted from Angstrom to nm by dividing by 10.".toList,
  "550.0 0.0000000000".toList,
  "560.0 0.2300000000".toList,
  "570.0 0.7400000000".toList,
  "580.0 0.9100000000".toList,
  "590.0 0.9800000000".toList,
  "600.0 1.0000000000".toList,
  "610.0 0.9800000000".toList,
  "620.0 0.9600000000".toList,
  "630.0 0.9300000000".toList,
  "640.0 0.9000000000".toList,
  "650.0 0.8600000000".toList,
  "660.0 0.8100000000".toList,
  "670.0 0.7800000000".toList,
  "680.0 0.7200000000".toList,
  "690.0 0.6700000000".toList,
  "700.0 0.6100000000".toList,
  "710.0 0.5600000000".toList,
  "720.0 0.5100000000".toList,
  "730.0 0.4600000000".toList,
  "740.0 0.4000000000".toList,
  "750.0 0.3500000000".toList,
  "800.0 0.1400000000".toList,
  "850.0 0.0300000000".toList,
  "900.0 0.0000000000".toList]

/-- `bessell1990/I.dat`, included by src/photometry/passbands/bessell1990.rs:109. -/
def rawI : Str := unlines [
  "# Source: Bessell 1990, PASP 102, 1181 (UBVRI passbands)".toList,
  "# Retrieved via SVO Filter Profile Service, http://svo2.cab.inta-csic.es/theory/fps/".toList,
  "# Filter ID: Generic/Bessell.I".toList,
  "# Columns: wavelength_nm transmission_dimensionless".toList,
  "# Retrieved: 2026-04-27".toList,
  "# Note: wavelengths converted from Angstrom to nm by dividing by 10.".toList,
  "700.0 0.0000000000".toList,
  "710.0 0.0240000000".toList,
  "720.0 0.2320000000".toList,
  "730.0 0.5550000000".toList,
  "740.0 0.7850000000".toList,
  "750.0 0.9100000000".toList,
  "760.0 0.9650000000".toList,
  "770.0 0.9850000000".toList,
  "780.0 0.9900000000".toList,
  "790.0 0.9950000000".toList,
  "800.0 1.0000000000".toList,
  "810.0 1.0000000000".toList,
  "820.0 0.9900000000".toList,
  "830.0 0.9800000000".toList,
  "840.0 0.9500000000".toList,
  "850.0 0.9100000000".toList,
  "860.0 0.8600000000".toList,
  "870.0 0.7500000000".toList,
  "880.0 0.5600000000".toList,
  "890.0 0.3300000000".toList,
  "900.0 0.1500000000".toList,
  "910.0 0.0300000000".toList,
  "920.0 0.0000000000".toList]

/-- `o3trans.dat`, lines 1-200. -/
def ozone0 : List (Nat × Nat) := [
  (300000, 869), (300100, 869), (300200, 890), (300300, 924), (300400, 946), (300500, 969), (300601, 987), (300701, 1022),
  (300801, 1064), (300901, 1112), (301002, 1169), (301102, 1217), (301202, 1279), (301303, 1322), (301403, 1355), (301504, 1399),
  (301604, 1426), (301705, 1442), (301805, 1458), (301906, 1475), (302006, 1494), (302107, 1524), (302208, 1563), (302308, 1598),
  (302409, 1642), (302510, 1702), (302611, 1761), (302712, 1825), (302813, 1894), (302914, 1946), (303015, 2023), (303116, 2084),
  (303217, 2133), (303318, 2180), (303419, 2207), (303520, 2241), (303621, 2271), (303722, 2304), (303824, 2316), (303925, 2307),
  (304026, 2318), (304127, 2349), (304229, 2417), (304330, 2476), (304432, 2530), (304533, 2578), (304635, 2643), (304736, 2745),
  (304838, 2816), (304939, 2904), (305041, 2998), (305143, 3068), (305244, 3151), (305346, 3196), (305448, 3248), (305550, 3271),
  (305652, 3278), (305754, 3284), (305855, 3315), (305957, 3359), (306059, 3397), (306161, 3401), (306263, 3391), (306366, 3412),
  (306468, 3471), (306570, 3560), (306672, 3641), (306774, 3703), (306876, 3759), (306979, 3870), (307081, 3971), (307183, 4078),
  (307286, 4171), (307388, 4239), (307491, 4324), (307593, 4379), (307696, 4420), (307798, 4432), (307901, 4410), (308004, 4398),
  (308106, 4411), (308209, 4437), (308312, 4484), (308414, 4584), (308517, 4675), (308620, 4651), (308723, 4636), (308826, 4660),
  (308929, 4705), (309032, 4751), (309135, 4794), (309238, 4896), (309341, 4967), (309444, 5132), (309547, 5301), (309650, 5379),
  (309754, 5477), (309857, 5475), (309960, 5516), (310063, 5512), (310167, 5510), (310270, 5480), (310374, 5485), (310477, 5568),
  (310581, 5653), (310684, 5695), (310788, 5722), (310891, 5763), (310995, 5808), (311099, 5834), (311202, 5846), (311306, 5822),
  (311410, 5803), (311514, 5821), (311617, 5900), (311721, 6019), (311825, 6128), (311929, 6231), (312033, 6311), (312137, 6374),
  (312241, 6409), (312345, 6454), (312449, 6531), (312553, 6619), (312658, 6655), (312762, 6697), (312866, 6732), (312970, 6734),
  (313075, 6778), (313179, 6778), (313284, 6763), (313388, 6679), (313492, 6584), (313597, 6570), (313701, 6643), (313806, 6713),
  (313911, 6804), (314015, 6902), (314120, 6985), (314225, 7086), (314329, 7182), (314434, 7301), (314539, 7414), (314644, 7471),
  (314749, 7481), (314854, 7458), (314959, 7465), (315064, 7502), (315169, 7514), (315274, 7500), (315379, 7452), (315484, 7290),
  (315589, 7193), (315694, 7228), (315799, 7347), (315905, 7454), (316010, 7592), (316115, 7680), (316221, 7753), (316326, 7795),
  (316432, 7845), (316537, 7920), (316643, 7985), (316748, 8066), (316854, 8080), (316959, 8020), (317065, 7930), (317171, 7914),
  (317276, 7948), (317382, 7990), (317488, 7965), (317594, 7844), (317700, 7764), (317805, 7830), (317911, 7966), (318017, 8066),
  (318123, 8093), (318229, 8171), (318336, 8275), (318442, 8394), (318548, 8484), (318654, 8532), (318760, 8571), (318866, 8596),
  (318973, 8657), (319079, 8720), (319185, 8720), (319292, 8652), (319398, 8494), (319505, 8332), (319611, 8322), (319718, 8393),
  (319824, 8446), (319931, 8368), (320038, 8243), (320144, 8289), (320251, 8447), (320358, 8582), (320464, 8694), (320571, 8732)]

/-- `o3trans.dat`, lines 201-400. -/
def ozone1 : List (Nat × Nat) := [
  (320678, 8793), (320785, 8897), (320892, 8979), (320999, 9063), (321106, 9108), (321213, 9117), (321320, 9100), (321427, 9079),
  (321534, 9089), (321641, 9115), (321749, 9119), (321856, 9039), (321963, 8776), (322071, 8601), (322178, 8629), (322285, 8733),
  (322393, 8832), (322500, 8869), (322608, 8724), (322715, 8656), (322823, 8737), (322930, 8858), (323038, 8990), (323146, 9096),
  (323253, 9202), (323361, 9270), (323469, 9344), (323577, 9392), (323685, 9444), (323793, 9486), (323900, 9504), (324008, 9487),
  (324116, 9428), (324225, 9366), (324333, 9356), (324441, 9368), (324549, 9372), (324657, 9330), (324765, 9092), (324873, 8933),
  (324982, 8963), (325090, 9044), (325198, 9148), (325307, 9234), (325415, 9240), (325524, 9175), (325632, 9198), (325741, 9279),
  (325849, 9352), (325958, 9429), (326067, 9491), (326175, 9542), (326284, 9583), (326393, 9607), (326502, 9631), (326610, 9652),
  (326719, 9672), (326828, 9684), (326937, 9672), (327046, 9612), (327155, 9528), (327264, 9492), (327373, 9505), (327482, 9538),
  (327592, 9556), (327701, 9516), (327810, 9373), (327919, 9246), (328029, 9214), (328138, 9266), (328247, 9355), (328357, 9427),
  (328466, 9502), (328576, 9562), (328685, 9617), (328795, 9666), (328904, 9703), (329014, 9734), (329124, 9761), (329233, 9784),
  (329343, 9797), (329453, 9806), (329563, 9805), (329673, 9798), (329783, 9799), (329892, 9805), (330002, 9809), (330112, 9788),
  (330222, 9704), (330333, 9605), (330443, 9593), (330553, 9613), (330663, 9641), (330773, 9669), (330883, 9662), (330994, 9567),
  (331104, 9506), (331214, 9529), (331325, 9570), (331435, 9623), (331546, 9676), (331656, 9715), (331767, 9755), (331877, 9783),
  (331988, 9811), (332099, 9832), (332209, 9851), (332320, 9865), (332431, 9879), (332542, 9886), (332653, 9887), (332763, 9886),
  (332874, 9872), (332985, 9856), (333096, 9849), (333207, 9847), (333318, 9847), (333430, 9837), (333541, 9789), (333652, 9697),
  (333763, 9658), (333874, 9671), (333986, 9703), (334097, 9738), (334208, 9775), (334320, 9806), (334431, 9830), (334543, 9847),
  (334654, 9857), (334766, 9870), (334877, 9885), (334989, 9899), (335101, 9913), (335212, 9923), (335324, 9930), (335436, 9934),
  (335548, 9937), (335659, 9936), (335771, 9938), (335883, 9942), (335995, 9942), (336107, 9939), (336219, 9928), (336331, 9910),
  (336443, 9882), (336556, 9872), (336668, 9876), (336780, 9883), (336892, 9887), (337005, 9874), (337117, 9840), (337229, 9784),
  (337342, 9770), (337454, 9789), (337567, 9813), (337679, 9837), (337792, 9861), (337904, 9879), (338017, 9896), (338130, 9910),
  (338242, 9925), (338355, 9934), (338468, 9944), (338581, 9949), (338694, 9951), (338806, 9956), (338919, 9959), (339032, 9959),
  (339145, 9959), (339258, 9959), (339371, 9955), (339485, 9952), (339598, 9952), (339711, 9952), (339824, 9949), (339937, 9939),
  (340051, 9909), (340164, 9881), (340278, 9880), (340391, 9888), (340504, 9900), (340618, 9911), (340731, 9922), (340845, 9932),
  (340959, 9940), (341072, 9947), (341186, 9953), (341300, 9958), (341413, 9962), (341527, 9965), (341641, 9968), (341755, 9968),
  (341869, 9969), (341983, 9969), (342097, 9970), (342211, 9971), (342325, 9972), (342439, 9973), (342553, 9973), (342667, 9972)]

/-- `o3trans.dat`, lines 401-600. -/
def ozone2 : List (Nat × Nat) := [
  (342782, 9970), (342896, 9967), (343010, 9965), (343125, 9961), (343239, 9958), (343353, 9958), (343468, 9959), (343582, 9958),
  (343697, 9954), (343811, 9944), (343926, 9922), (344041, 9910), (344155, 9911), (344270, 9919), (344385, 9928), (344500, 9937),
  (344614, 9946), (344729, 9953), (344844, 9958), (344959, 9963), (345074, 9966), (345189, 9969), (345304, 9971), (345419, 9973),
  (345534, 9975), (345650, 9976), (345765, 9977), (345880, 9978), (345995, 9981), (346111, 9984), (346226, 9986), (346341, 9988),
  (346457, 9989), (346572, 9989), (346688, 9990), (346803, 9990), (346919, 9990), (347035, 9989), (347150, 9987), (347266, 9982),
  (347382, 9979), (347498, 9978), (347614, 9978), (347729, 9981), (347845, 9984), (347961, 9987), (348077, 9989), (348193, 9990),
  (348309, 9991), (348425, 9992), (348542, 9993), (348658, 9993), (348774, 9993), (348890, 9994), (349007, 9995), (349123, 9995),
  (349239, 9996), (349356, 9995), (349472, 9995), (349589, 9994), (349705, 9993), (349822, 9994), (349938, 9994), (350055, 9994),
  (350172, 9994), (350288, 9994), (350405, 9994), (350522, 9995), (350639, 9995), (350756, 9995), (350873, 9995), (350990, 9995),
  (351106, 9994), (351224, 9993), (351341, 9989), (351458, 9985), (351575, 9982), (351692, 9980), (351809, 9981), (351927, 9984),
  (352044, 9986), (352161, 9988), (352279, 9989), (352396, 9989), (352514, 9990), (352631, 9991), (352749, 9992), (352866, 9992),
  (352984, 9993), (353101, 9994), (353219, 9994), (353337, 9994), (353455, 9995), (353572, 9995), (353690, 9995), (353808, 9995),
  (353926, 9995), (354044, 9995), (354162, 9995), (354280, 9994), (354398, 9994), (354516, 9994), (354635, 9994), (354753, 9994),
  (354871, 9993), (354989, 9993), (355108, 9993), (355226, 9992), (355344, 9992), (355463, 9992), (355581, 9992), (355700, 9992),
  (355818, 9991), (355937, 9991), (356056, 9990), (356174, 9990), (356293, 9990), (356412, 9989), (356531, 9989), (356650, 9987),
  (356768, 9986), (356887, 9985), (357006, 9984), (357125, 9984), (357244, 9984), (357363, 9983), (357483, 9982), (357602, 9982),
  (357721, 9981), (357840, 9981), (357959, 9980), (358079, 9979), (358198, 9979), (358318, 9978), (358437, 9977), (358556, 9977),
  (358676, 9976), (358796, 9975), (358915, 9974), (359035, 9973), (359154, 9972), (359274, 9971), (359394, 9970), (359514, 9969),
  (359634, 9968), (359753, 9968), (359873, 9967), (359993, 9967), (360113, 9967), (360233, 9967), (360353, 9966), (360474, 9966),
  (360594, 9966), (360714, 9966), (360834, 9967), (360954, 9967), (361075, 9968), (361195, 9969), (361315, 9970), (361436, 9971),
  (361556, 9972), (361677, 9974), (361797, 9975), (361918, 9977), (362039, 9978), (362159, 9980), (362280, 9981), (362401, 9983),
  (362522, 9984), (362643, 9985), (362763, 9987), (362884, 9988), (363005, 9989), (363126, 9990), (363247, 9991), (363368, 9992),
  (363490, 9992), (363611, 9993), (363732, 9994), (363853, 9994), (363974, 9995), (364096, 9995), (364217, 9995), (364339, 9995),
  (364460, 9996), (364581, 9996), (364703, 9996), (364825, 9996), (364946, 9997), (365068, 9997), (365189, 9997), (365311, 9997),
  (365433, 9998), (365555, 9999), (365677, 9999), (365799, 9999), (365920, 9999), (366042, 9999), (366164, 9999), (366287, 9999)]

/-- `o3trans.dat`, lines 601-800. -/
def ozone3 : List (Nat × Nat) := [
  (366409, 9999), (366531, 9999), (366653, 9999), (366775, 9999), (366897, 10000), (367020, 10000), (367142, 10000), (367264, 10000),
  (367387, 10000), (367509, 10000), (367632, 10000), (367754, 10000), (367877, 10000), (368000, 10000), (368122, 10000), (368245, 10000),
  (368368, 10000), (368490, 10000), (368613, 10000), (368736, 10000), (368859, 10000), (368982, 10000), (369105, 10000), (369228, 10000),
  (369351, 10000), (369474, 10000), (369597, 10000), (369721, 10000), (369844, 10000), (369967, 10000), (370090, 10000), (370214, 10000),
  (370337, 10000), (370461, 10000), (370584, 10000), (370708, 10000), (370831, 10000), (370955, 10000), (371079, 10000), (371202, 10000),
  (371326, 10000), (371450, 10000), (371574, 10000), (371697, 10000), (371821, 10000), (371945, 10000), (372069, 10000), (372193, 10000),
  (372317, 10000), (372441, 10000), (372566, 10000), (372690, 10000), (372814, 10000), (372938, 10000), (373063, 10000), (373187, 10000),
  (373311, 10000), (373436, 10000), (373560, 10000), (373685, 9999), (373809, 9999), (373934, 9999), (374059, 9999), (374183, 9999),
  (374308, 9999), (374433, 9999), (374558, 9999), (374682, 9999), (374807, 9999), (374932, 9999), (375057, 9999), (375182, 9999),
  (375307, 9999), (375432, 9998), (375558, 9998), (375683, 9998), (375808, 9998), (375933, 9998), (376059, 9997), (376184, 9997),
  (376309, 9997), (376435, 9997), (376560, 9996), (376686, 9996), (376811, 9996), (376937, 9995), (377063, 9995), (377188, 9994),
  (377314, 9994), (377440, 9993), (377566, 9992), (377691, 9992), (377817, 9991), (377943, 9991), (378069, 9990), (378195, 9989),
  (378321, 9988), (378447, 9988), (378574, 9987), (378700, 9986), (378826, 9986), (378952, 9985), (379079, 9984), (379205, 9984),
  (379331, 9983), (379458, 9983), (379584, 9983), (379711, 9982), (379837, 9982), (379964, 9982), (380091, 9982), (380217, 9982),
  (380344, 9982), (380471, 9983), (380598, 9983), (380725, 9983), (380851, 9984), (380978, 9984), (381105, 9985), (381232, 9985),
  (381359, 9986), (381487, 9987), (381614, 9988), (381741, 9988), (381868, 9989), (381996, 9990), (382123, 9991), (382250, 9991),
  (382378, 9992), (382505, 9993), (382633, 9993), (382760, 9994), (382888, 9994), (383015, 9995), (383143, 9995), (383271, 9996),
  (383399, 9996), (383526, 9996), (383654, 9997), (383782, 9997), (383910, 9997), (384038, 9997), (384166, 9998), (384294, 9998),
  (384422, 9998), (384550, 9998), (384678, 9998), (384807, 9999), (384935, 9999), (385063, 9999), (385192, 9999), (385320, 9999),
  (385448, 9999), (385577, 9999), (385705, 9999), (385834, 9999), (385963, 9999), (386091, 10000), (386220, 10000), (386349, 10000),
  (386477, 10000), (386606, 10000), (386735, 10000), (386864, 10000), (386993, 10000), (387122, 10000), (387251, 10000), (387380, 10000),
  (387509, 10000), (387638, 10000), (387768, 10000), (387897, 10000), (388026, 10000), (388156, 10000), (388285, 10000), (388414, 10000),
  (388544, 10000), (388673, 10000), (388803, 10000), (388933, 10000), (389062, 10000), (389192, 10000), (389322, 10000), (389451, 10000),
  (389581, 10000), (389711, 10000), (389841, 10000), (389971, 10000), (390101, 10000), (390231, 10000), (390361, 10000), (390491, 10000),
  (390621, 10000), (390751, 10000), (390882, 10000), (391012, 10000), (391142, 10000), (391273, 10000), (391403, 10000), (391534, 10000)]

/-- `o3trans.dat`, lines 801-1000. -/
def ozone4 : List (Nat × Nat) := [
  (391664, 10000), (391795, 10000), (391925, 10000), (392056, 10000), (392187, 10000), (392317, 10000), (392448, 10000), (392579, 10000),
  (392710, 10000), (392841, 10000), (392972, 10000), (393103, 10000), (393234, 10000), (393365, 10000), (393496, 10000), (393627, 10000),
  (393758, 10000), (393890, 10000), (394021, 10000), (394152, 10000), (394284, 10000), (394415, 10000), (394546, 10000), (394678, 10000),
  (394810, 10000), (394941, 10000), (395073, 10000), (395204, 10000), (395336, 10000), (395468, 10000), (395600, 10000), (395732, 10000),
  (395864, 10000), (395996, 10000), (396128, 10000), (396260, 10000), (396392, 10000), (396524, 10000), (396656, 10000), (396788, 10000),
  (396920, 10000), (397053, 10000), (397185, 10000), (397317, 10000), (397450, 10000), (397582, 10000), (397715, 10000), (397847, 10000),
  (397980, 10000), (398113, 10000), (398245, 10000), (398378, 10000), (398511, 10000), (398644, 10000), (398777, 10000), (398910, 10000),
  (399043, 10000), (399176, 10000), (399309, 10000), (399442, 10000), (399575, 10000), (399708, 10000), (399841, 10000), (399975, 10000),
  (400108, 10000), (400241, 10000), (400375, 10000), (400508, 10000), (400642, 10000), (400775, 10000), (400909, 10000), (401043, 10000),
  (401176, 10000), (401310, 10000), (401444, 10000), (401578, 10000), (401711, 10000), (401845, 10000), (401979, 10000), (402113, 10000),
  (402247, 10000), (402381, 10000), (402515, 10000), (402650, 10000), (402784, 10000), (402918, 10000), (403052, 10000), (403187, 10000),
  (403321, 10000), (403456, 10000), (403590, 10000), (403725, 10000), (403859, 10000), (403994, 10000), (404128, 10000), (404263, 10000),
  (404398, 10000), (404533, 10000), (404668, 10000), (404802, 10000), (404937, 10000), (405072, 10000), (405207, 10000), (405342, 10000),
  (405478, 10000), (405613, 10000), (405748, 10000), (405883, 10000), (406018, 10000), (406154, 9999), (406289, 9999), (406425, 9999),
  (406560, 9999), (406696, 10000), (406831, 10000), (406967, 10000), (407102, 10000), (407238, 10000), (407374, 10000), (407510, 10000),
  (407646, 10000), (407781, 10000), (407917, 10000), (408053, 10000), (408189, 10000), (408325, 10000), (408462, 10000), (408598, 10000),
  (408734, 10000), (408870, 10000), (409006, 10000), (409143, 10000), (409279, 9999), (409416, 9999), (409552, 9999), (409689, 9999),
  (409825, 9999), (409962, 9999), (410098, 9999), (410235, 9999), (410372, 9999), (410509, 9999), (410645, 9999), (410782, 9999),
  (410919, 9999), (411056, 9999), (411193, 9999), (411330, 9999), (411467, 9999), (411605, 9999), (411742, 9999), (411879, 9999),
  (412016, 9999), (412154, 9999), (412291, 9999), (412428, 9999), (412566, 9999), (412703, 9999), (412841, 9999), (412979, 9999),
  (413116, 9999), (413254, 9999), (413392, 9999), (413530, 9999), (413667, 9999), (413805, 9999), (413943, 9999), (414081, 9999),
  (414219, 9999), (414357, 9999), (414495, 9999), (414634, 9999), (414772, 9999), (414910, 9999), (415048, 9999), (415187, 9999),
  (415325, 9999), (415464, 9999), (415602, 9999), (415741, 9999), (415879, 9999), (416018, 9999), (416156, 9999), (416295, 9999),
  (416434, 9999), (416573, 9999), (416712, 9999), (416851, 9999), (416989, 9999), (417128, 9999), (417267, 9999), (417407, 9999),
  (417546, 9998), (417685, 9998), (417824, 9998), (417963, 9998), (418103, 9998), (418242, 9998), (418382, 9998), (418521, 9998)]

/-- `o3trans.dat`, lines 1001-1200. -/
def ozone5 : List (Nat × Nat) := [
  (418660, 9998), (418800, 9998), (418940, 9998), (419079, 9998), (419219, 9998), (419359, 9998), (419498, 9998), (419638, 9998),
  (419778, 9998), (419918, 9998), (420058, 9998), (420198, 9998), (420338, 9998), (420478, 9998), (420618, 9998), (420759, 9998),
  (420899, 9998), (421039, 9998), (421180, 9998), (421320, 9998), (421460, 9998), (421601, 9998), (421741, 9998), (421882, 9998),
  (422023, 9998), (422163, 9998), (422304, 9998), (422445, 9998), (422586, 9998), (422726, 9998), (422867, 9998), (423008, 9998),
  (423149, 9998), (423290, 9998), (423431, 9998), (423573, 9998), (423714, 9997), (423855, 9997), (423996, 9997), (424138, 9997),
  (424279, 9997), (424420, 9997), (424562, 9997), (424703, 9997), (424845, 9997), (424987, 9997), (425128, 9997), (425270, 9997),
  (425412, 9997), (425554, 9997), (425695, 9997), (425837, 9997), (425979, 9997), (426121, 9997), (426263, 9997), (426405, 9997),
  (426548, 9997), (426690, 9997), (426832, 9997), (426974, 9997), (427117, 9997), (427259, 9997), (427401, 9997), (427544, 9997),
  (427686, 9997), (427829, 9997), (427971, 9997), (428114, 9997), (428257, 9997), (428400, 9997), (428542, 9997), (428685, 9997),
  (428828, 9997), (428971, 9997), (429114, 9997), (429257, 9997), (429400, 9997), (429543, 9997), (429687, 9997), (429830, 9997),
  (429973, 9997), (430116, 9997), (430260, 9997), (430403, 9997), (430547, 9997), (430690, 9997), (430834, 9997), (430977, 9997),
  (431121, 9997), (431265, 9997), (431408, 9997), (431552, 9996), (431696, 9996), (431840, 9996), (431984, 9996), (432128, 9996),
  (432272, 9996), (432416, 9996), (432560, 9996), (432704, 9996), (432849, 9995), (432993, 9995), (433137, 9995), (433282, 9995),
  (433426, 9995), (433571, 9995), (433715, 9995), (433860, 9995), (434004, 9995), (434149, 9995), (434294, 9995), (434438, 9995),
  (434583, 9995), (434728, 9995), (434873, 9995), (435018, 9995), (435163, 9995), (435308, 9995), (435453, 9995), (435598, 9995),
  (435743, 9995), (435889, 9995), (436034, 9995), (436179, 9995), (436325, 9995), (436470, 9995), (436616, 9995), (436761, 9995),
  (436907, 9995), (437052, 9995), (437198, 9995), (437344, 9995), (437490, 9995), (437635, 9995), (437781, 9995), (437927, 9995),
  (438073, 9994), (438219, 9994), (438365, 9994), (438511, 9994), (438658, 9994), (438804, 9994), (438950, 9994), (439096, 9993),
  (439243, 9993), (439389, 9993), (439536, 9993), (439682, 9993), (439829, 9992), (439975, 9992), (440122, 9992), (440269, 9992),
  (440415, 9992), (440562, 9991), (440709, 9991), (440856, 9991), (441003, 9991), (441150, 9991), (441297, 9991), (441444, 9991),
  (441591, 9990), (441738, 9990), (441886, 9990), (442033, 9990), (442180, 9990), (442328, 9990), (442475, 9989), (442623, 9989),
  (442770, 9989), (442918, 9989), (443065, 9989), (443213, 9989), (443361, 9989), (443509, 9989), (443656, 9989), (443804, 9988),
  (443952, 9988), (444100, 9988), (444248, 9988), (444396, 9988), (444545, 9988), (444693, 9988), (444841, 9988), (444989, 9988),
  (445138, 9988), (445286, 9988), (445434, 9988), (445583, 9988), (445731, 9988), (445880, 9988), (446029, 9988), (446177, 9988),
  (446326, 9988), (446475, 9988), (446624, 9988), (446772, 9988), (446921, 9988), (447070, 9988), (447219, 9988), (447368, 9988)]

/-- `o3trans.dat`, lines 1201-1400. -/
def ozone6 : List (Nat × Nat) := [
  (447518, 9988), (447667, 9988), (447816, 9988), (447965, 9988), (448115, 9988), (448264, 9988), (448413, 9988), (448563, 9988),
  (448712, 9988), (448862, 9988), (449012, 9989), (449161, 9989), (449311, 9989), (449461, 9989), (449611, 9988), (449760, 9988),
  (449910, 9988), (450060, 9988), (450210, 9988), (450360, 9988), (450510, 9988), (450661, 9989), (450811, 9989), (450961, 9988),
  (451111, 9988), (451262, 9988), (451412, 9988), (451563, 9988), (451713, 9989), (451864, 9989), (452014, 9989), (452165, 9989),
  (452316, 9989), (452467, 9989), (452617, 9989), (452768, 9989), (452919, 9989), (453070, 9989), (453221, 9989), (453372, 9989),
  (453523, 9989), (453675, 9989), (453826, 9989), (453977, 9989), (454128, 9989), (454280, 9989), (454431, 9988), (454583, 9988),
  (454734, 9988), (454886, 9988), (455037, 9988), (455189, 9988), (455341, 9988), (455493, 9988), (455644, 9987), (455796, 9987),
  (455948, 9987), (456100, 9987), (456252, 9987), (456404, 9986), (456557, 9986), (456709, 9986), (456861, 9985), (457013, 9985),
  (457166, 9985), (457318, 9985), (457470, 9984), (457623, 9984), (457775, 9983), (457928, 9983), (458081, 9983), (458233, 9982),
  (458386, 9982), (458539, 9982), (458692, 9981), (458845, 9981), (458998, 9981), (459151, 9980), (459304, 9980), (459457, 9980),
  (459610, 9979), (459763, 9979), (459916, 9979), (460070, 9978), (460223, 9978), (460376, 9978), (460530, 9978), (460683, 9977),
  (460837, 9977), (460991, 9977), (461144, 9977), (461298, 9977), (461452, 9976), (461606, 9976), (461759, 9976), (461913, 9976),
  (462067, 9976), (462221, 9976), (462375, 9976), (462529, 9976), (462684, 9976), (462838, 9976), (462992, 9976), (463147, 9976),
  (463301, 9976), (463455, 9976), (463610, 9976), (463764, 9977), (463919, 9977), (464074, 9977), (464228, 9977), (464383, 9977),
  (464538, 9977), (464693, 9977), (464848, 9978), (465002, 9978), (465157, 9978), (465313, 9978), (465468, 9978), (465623, 9978),
  (465778, 9978), (465933, 9978), (466089, 9978), (466244, 9977), (466399, 9977), (466555, 9977), (466710, 9977), (466866, 9977),
  (467022, 9976), (467177, 9976), (467333, 9976), (467489, 9975), (467645, 9975), (467800, 9975), (467956, 9974), (468112, 9974),
  (468268, 9974), (468424, 9973), (468581, 9973), (468737, 9972), (468893, 9972), (469049, 9971), (469206, 9971), (469362, 9970),
  (469519, 9970), (469675, 9969), (469832, 9969), (469988, 9969), (470145, 9968), (470302, 9967), (470458, 9967), (470615, 9966),
  (470772, 9966), (470929, 9965), (471086, 9964), (471243, 9964), (471400, 9963), (471557, 9963), (471714, 9962), (471872, 9961),
  (472029, 9961), (472186, 9960), (472344, 9960), (472501, 9959), (472659, 9958), (472816, 9958), (472974, 9957), (473131, 9957),
  (473289, 9956), (473447, 9955), (473605, 9954), (473763, 9953), (473921, 9952), (474078, 9951), (474237, 9950), (474395, 9949),
  (474553, 9947), (474711, 9946), (474869, 9944), (475027, 9942), (475186, 9940), (475344, 9938), (475503, 9936), (475661, 9934),
  (475820, 9932), (475978, 9929), (476137, 9927), (476296, 9924), (476454, 9923), (476613, 9921), (476772, 9920), (476931, 9919),
  (477090, 9918), (477249, 9917), (477408, 9917), (477567, 9917), (477726, 9917), (477886, 9917), (478045, 9917), (478204, 9918)]

/-- `o3trans.dat`, lines 1401-1600. -/
def ozone7 : List (Nat × Nat) := [
  (478364, 9919), (478523, 9920), (478683, 9920), (478842, 9921), (479002, 9922), (479162, 9923), (479321, 9924), (479481, 9925),
  (479641, 9925), (479801, 9926), (479961, 9927), (480121, 9928), (480281, 9929), (480441, 9930), (480601, 9931), (480761, 9931),
  (480921, 9932), (481082, 9933), (481242, 9934), (481402, 9935), (481563, 9935), (481723, 9936), (481884, 9936), (482045, 9937),
  (482205, 9938), (482366, 9938), (482527, 9939), (482688, 9939), (482849, 9940), (483010, 9940), (483171, 9941), (483332, 9942),
  (483493, 9942), (483654, 9943), (483815, 9944), (483976, 9944), (484138, 9945), (484299, 9945), (484461, 9946), (484622, 9947),
  (484784, 9947), (484945, 9948), (485107, 9948), (485268, 9949), (485430, 9949), (485592, 9949), (485754, 9950), (485916, 9950),
  (486078, 9950), (486240, 9951), (486402, 9951), (486564, 9951), (486726, 9951), (486888, 9951), (487051, 9951), (487213, 9951),
  (487376, 9951), (487538, 9952), (487701, 9952), (487863, 9952), (488026, 9951), (488188, 9951), (488351, 9951), (488514, 9951),
  (488677, 9950), (488840, 9950), (489003, 9950), (489166, 9949), (489329, 9949), (489492, 9948), (489655, 9948), (489818, 9948),
  (489981, 9947), (490145, 9947), (490308, 9947), (490472, 9946), (490635, 9946), (490799, 9946), (490962, 9946), (491126, 9945),
  (491290, 9945), (491453, 9945), (491617, 9945), (491781, 9945), (491945, 9945), (492109, 9945), (492273, 9944), (492437, 9944),
  (492601, 9944), (492765, 9944), (492930, 9944), (493094, 9944), (493258, 9943), (493423, 9943), (493587, 9943), (493752, 9943),
  (493916, 9943), (494081, 9942), (494246, 9942), (494410, 9942), (494575, 9942), (494740, 9942), (494905, 9941), (495070, 9941),
  (495235, 9941), (495400, 9940), (495565, 9940), (495730, 9939), (495896, 9939), (496061, 9939), (496226, 9938), (496392, 9937),
  (496557, 9937), (496723, 9936), (496888, 9936), (497054, 9935), (497220, 9935), (497385, 9934), (497551, 9933), (497717, 9932),
  (497883, 9932), (498049, 9931), (498215, 9930), (498381, 9929), (498547, 9928), (498713, 9927), (498879, 9926), (499046, 9925),
  (499212, 9924), (499378, 9923), (499545, 9922), (499711, 9921), (499878, 9920), (500045, 9919), (500211, 9918), (500378, 9916),
  (500545, 9915), (500712, 9914), (500879, 9913), (501046, 9912), (501213, 9911), (501380, 9910), (501547, 9909), (501714, 9908),
  (501881, 9906), (502048, 9905), (502216, 9904), (502383, 9903), (502551, 9902), (502718, 9901), (502886, 9900), (503053, 9899),
  (503221, 9899), (503389, 9898), (503557, 9897), (503724, 9897), (503892, 9896), (504060, 9895), (504228, 9895), (504396, 9894),
  (504565, 9894), (504733, 9893), (504901, 9893), (505069, 9892), (505238, 9892), (505406, 9892), (505575, 9892), (505743, 9892),
  (505912, 9892), (506080, 9892), (506249, 9892), (506418, 9892), (506587, 9892), (506755, 9892), (506924, 9892), (507093, 9893),
  (507262, 9893), (507431, 9893), (507601, 9893), (507770, 9894), (507939, 9894), (508108, 9894), (508278, 9895), (508447, 9895),
  (508617, 9896), (508786, 9896), (508956, 9896), (509125, 9897), (509295, 9897), (509465, 9897), (509635, 9897), (509805, 9897),
  (509974, 9898), (510144, 9898), (510315, 9898), (510485, 9898), (510655, 9898), (510825, 9898), (510995, 9898), (511166, 9898)]

/-- `o3trans.dat`, lines 1601-1800. -/
def ozone8 : List (Nat × Nat) := [
  (511336, 9898), (511506, 9897), (511677, 9897), (511848, 9897), (512018, 9897), (512189, 9896), (512360, 9896), (512530, 9895),
  (512701, 9895), (512872, 9895), (513043, 9894), (513214, 9894), (513385, 9894), (513556, 9893), (513727, 9893), (513899, 9892),
  (514070, 9892), (514241, 9891), (514413, 9891), (514584, 9891), (514756, 9890), (514927, 9889), (515099, 9889), (515271, 9888),
  (515442, 9888), (515614, 9888), (515786, 9887), (515958, 9887), (516130, 9887), (516302, 9886), (516474, 9886), (516646, 9885),
  (516819, 9885), (516991, 9885), (517163, 9884), (517336, 9884), (517508, 9884), (517680, 9883), (517853, 9883), (518026, 9882),
  (518198, 9882), (518371, 9881), (518544, 9881), (518717, 9881), (518890, 9880), (519063, 9880), (519236, 9879), (519409, 9879),
  (519582, 9878), (519755, 9878), (519928, 9878), (520102, 9877), (520275, 9876), (520448, 9876), (520622, 9875), (520795, 9874),
  (520969, 9873), (521143, 9873), (521316, 9872), (521490, 9871), (521664, 9870), (521838, 9869), (522012, 9868), (522186, 9868),
  (522360, 9866), (522534, 9865), (522708, 9864), (522882, 9863), (523057, 9862), (523231, 9861), (523405, 9860), (523580, 9859),
  (523754, 9858), (523929, 9856), (524104, 9855), (524278, 9854), (524453, 9852), (524628, 9851), (524803, 9850), (524978, 9848),
  (525153, 9847), (525328, 9846), (525503, 9845), (525678, 9843), (525853, 9842), (526029, 9841), (526204, 9839), (526379, 9838),
  (526555, 9837), (526730, 9835), (526906, 9834), (527082, 9832), (527257, 9831), (527433, 9830), (527609, 9829), (527785, 9827),
  (527961, 9826), (528137, 9825), (528313, 9823), (528489, 9822), (528665, 9821), (528841, 9820), (529017, 9819), (529194, 9818),
  (529370, 9816), (529547, 9815), (529723, 9814), (529900, 9813), (530076, 9812), (530253, 9811), (530430, 9810), (530607, 9809),
  (530783, 9808), (530960, 9807), (531137, 9807), (531314, 9806), (531491, 9805), (531669, 9804), (531846, 9804), (532023, 9803),
  (532200, 9803), (532378, 9802), (532555, 9802), (532733, 9802), (532910, 9801), (533088, 9801), (533266, 9801), (533444, 9801),
  (533621, 9801), (533799, 9801), (533977, 9801), (534155, 9801), (534333, 9801), (534511, 9801), (534689, 9802), (534868, 9802),
  (535046, 9802), (535224, 9803), (535403, 9803), (535581, 9803), (535760, 9804), (535938, 9804), (536117, 9804), (536296, 9804),
  (536474, 9804), (536653, 9805), (536832, 9805), (537011, 9805), (537190, 9805), (537369, 9805), (537548, 9805), (537727, 9805),
  (537907, 9805), (538086, 9805), (538265, 9804), (538445, 9804), (538624, 9804), (538804, 9804), (538983, 9803), (539163, 9803),
  (539343, 9802), (539523, 9802), (539702, 9801), (539882, 9801), (540062, 9801), (540242, 9800), (540422, 9800), (540603, 9799),
  (540783, 9798), (540963, 9798), (541143, 9797), (541324, 9796), (541504, 9796), (541685, 9795), (541865, 9795), (542046, 9794),
  (542227, 9793), (542407, 9792), (542588, 9792), (542769, 9791), (542950, 9790), (543131, 9790), (543312, 9789), (543493, 9788),
  (543674, 9788), (543855, 9787), (544037, 9786), (544218, 9786), (544399, 9785), (544581, 9784), (544762, 9784), (544944, 9783),
  (545126, 9783), (545307, 9782), (545489, 9782), (545671, 9781), (545853, 9781), (546035, 9780), (546217, 9780), (546399, 9779)]

/-- `o3trans.dat`, lines 1801-2000. -/
def ozone9 : List (Nat × Nat) := [
  (546581, 9779), (546763, 9779), (546945, 9778), (547128, 9778), (547310, 9777), (547493, 9777), (547675, 9776), (547858, 9776),
  (548040, 9776), (548223, 9775), (548406, 9775), (548588, 9775), (548771, 9774), (548954, 9774), (549137, 9774), (549320, 9773),
  (549503, 9773), (549687, 9773), (549870, 9772), (550053, 9772), (550236, 9771), (550420, 9771), (550603, 9771), (550787, 9770),
  (550970, 9769), (551154, 9769), (551338, 9769), (551522, 9768), (551705, 9768), (551889, 9767), (552073, 9767), (552257, 9766),
  (552441, 9766), (552626, 9765), (552810, 9765), (552994, 9764), (553178, 9763), (553363, 9763), (553547, 9762), (553732, 9762),
  (553916, 9761), (554101, 9760), (554286, 9760), (554470, 9759), (554655, 9758), (554840, 9757), (555025, 9757), (555210, 9756),
  (555395, 9755), (555580, 9754), (555765, 9753), (555951, 9753), (556136, 9751), (556321, 9750), (556507, 9750), (556692, 9749),
  (556878, 9748), (557064, 9746), (557249, 9745), (557435, 9744), (557621, 9743), (557807, 9742), (557993, 9741), (558179, 9740),
  (558365, 9738), (558551, 9737), (558737, 9736), (558923, 9734), (559110, 9733), (559296, 9732), (559482, 9730), (559669, 9729),
  (559855, 9728), (560042, 9726), (560229, 9725), (560415, 9723), (560602, 9722), (560789, 9721), (560976, 9719), (561163, 9717),
  (561350, 9716), (561537, 9715), (561724, 9713), (561912, 9711), (562099, 9710), (562286, 9709), (562474, 9707), (562661, 9706),
  (562849, 9704), (563036, 9703), (563224, 9701), (563412, 9700), (563600, 9699), (563787, 9697), (563975, 9696), (564163, 9694),
  (564351, 9693), (564540, 9691), (564728, 9690), (564916, 9689), (565104, 9687), (565293, 9686), (565481, 9684), (565670, 9683),
  (565858, 9681), (566047, 9680), (566235, 9679), (566424, 9677), (566613, 9676), (566802, 9674), (566991, 9672), (567180, 9670),
  (567369, 9669), (567558, 9667), (567747, 9666), (567936, 9664), (568126, 9662), (568315, 9661), (568505, 9659), (568694, 9657),
  (568884, 9655), (569073, 9653), (569263, 9651), (569453, 9649), (569642, 9648), (569832, 9646), (570022, 9643), (570212, 9641),
  (570402, 9639), (570593, 9638), (570783, 9636), (570973, 9634), (571163, 9632), (571354, 9630), (571544, 9628), (571735, 9626),
  (571925, 9625), (572116, 9623), (572307, 9621), (572497, 9619), (572688, 9618), (572879, 9616), (573070, 9615), (573261, 9613),
  (573452, 9612), (573643, 9611), (573835, 9609), (574026, 9608), (574217, 9607), (574409, 9606), (574600, 9605), (574792, 9604),
  (574983, 9604), (575175, 9603), (575367, 9603), (575558, 9602), (575750, 9602), (575942, 9601), (576134, 9601), (576326, 9601),
  (576518, 9601), (576710, 9601), (576903, 9602), (577095, 9602), (577287, 9602), (577480, 9603), (577672, 9603), (577865, 9604),
  (578057, 9605), (578250, 9607), (578443, 9608), (578636, 9610), (578829, 9612), (579021, 9614), (579214, 9616), (579408, 9619),
  (579601, 9622), (579794, 9626), (579987, 9629), (580180, 9632), (580374, 9636), (580567, 9639), (580761, 9642), (580954, 9645),
  (581148, 9649), (581342, 9651), (581536, 9654), (581729, 9656), (581923, 9659), (582117, 9662), (582311, 9664), (582505, 9666),
  (582700, 9668), (582894, 9670), (583088, 9672), (583283, 9673), (583477, 9675), (583671, 9677), (583866, 9679), (584061, 9680)]

/-- `o3trans.dat`, lines 2001-2200. -/
def ozone10 : List (Nat × Nat) := [
  (584255, 9681), (584450, 9683), (584645, 9684), (584840, 9685), (585035, 9686), (585230, 9687), (585425, 9688), (585620, 9689),
  (585815, 9690), (586010, 9691), (586206, 9692), (586401, 9692), (586597, 9693), (586792, 9693), (586988, 9694), (587183, 9694),
  (587379, 9695), (587575, 9695), (587771, 9696), (587967, 9696), (588163, 9696), (588359, 9696), (588555, 9697), (588751, 9697),
  (588947, 9697), (589144, 9697), (589340, 9697), (589536, 9697), (589733, 9697), (589930, 9697), (590126, 9696), (590323, 9696),
  (590520, 9695), (590717, 9695), (590913, 9695), (591110, 9694), (591307, 9694), (591505, 9693), (591702, 9693), (591899, 9692),
  (592096, 9691), (592294, 9691), (592491, 9690), (592689, 9689), (592886, 9688), (593084, 9687), (593281, 9686), (593479, 9685),
  (593677, 9684), (593875, 9683), (594073, 9682), (594271, 9681), (594469, 9680), (594667, 9679), (594865, 9678), (595064, 9677),
  (595262, 9675), (595460, 9674), (595659, 9673), (595857, 9671), (596056, 9670), (596255, 9669), (596453, 9668), (596652, 9666),
  (596851, 9665), (597050, 9664), (597249, 9663), (597448, 9662), (597647, 9661), (597847, 9660), (598046, 9659), (598245, 9658),
  (598445, 9657), (598644, 9656), (598844, 9655), (599043, 9654), (599243, 9653), (599443, 9653), (599643, 9652), (599842, 9651),
  (600042, 9650), (600242, 9650), (600442, 9649), (600643, 9649), (600843, 9649), (601043, 9648), (601243, 9648), (601444, 9647),
  (601644, 9647), (601845, 9647), (602046, 9647), (602246, 9647), (602447, 9647), (602648, 9647), (602849, 9647), (603050, 9647),
  (603251, 9648), (603452, 9648), (603653, 9648), (603854, 9649), (604055, 9649), (604257, 9650), (604458, 9650), (604660, 9651),
  (604861, 9651), (605063, 9651), (605264, 9652), (605466, 9653), (605668, 9654), (605870, 9654), (606072, 9655), (606274, 9656),
  (606476, 9657), (606678, 9658), (606880, 9658), (607083, 9660), (607285, 9661), (607487, 9662), (607690, 9663), (607893, 9664),
  (608095, 9665), (608298, 9665), (608501, 9667), (608703, 9668), (608906, 9669), (609109, 9670), (609312, 9671), (609515, 9672),
  (609719, 9673), (609922, 9674), (610125, 9675), (610329, 9677), (610532, 9678), (610736, 9679), (610939, 9680), (611143, 9681),
  (611346, 9682), (611550, 9683), (611754, 9684), (611958, 9685), (612162, 9686), (612366, 9687), (612570, 9688), (612774, 9689),
  (612979, 9690), (613183, 9691), (613387, 9691), (613592, 9692), (613796, 9693), (614001, 9694), (614206, 9695), (614410, 9695),
  (614615, 9696), (614820, 9697), (615025, 9698), (615230, 9699), (615435, 9699), (615640, 9700), (615845, 9701), (616051, 9701),
  (616256, 9702), (616461, 9703), (616667, 9703), (616872, 9704), (617078, 9704), (617284, 9705), (617490, 9705), (617695, 9706),
  (617901, 9706), (618107, 9707), (618313, 9707), (618519, 9707), (618726, 9708), (618932, 9708), (619138, 9708), (619345, 9709),
  (619551, 9709), (619757, 9709), (619964, 9709), (620171, 9709), (620377, 9709), (620584, 9709), (620791, 9709), (620998, 9709),
  (621205, 9709), (621412, 9709), (621619, 9709), (621826, 9709), (622034, 9709), (622241, 9708), (622448, 9708), (622656, 9708),
  (622863, 9708), (623071, 9707), (623279, 9707), (623487, 9707), (623694, 9707), (623902, 9707), (624110, 9706), (624318, 9706)]

/-- `o3trans.dat`, lines 2201-2400. -/
def ozone11 : List (Nat × Nat) := [
  (624526, 9706), (624735, 9705), (624943, 9705), (625151, 9705), (625360, 9705), (625568, 9705), (625777, 9704), (625985, 9704),
  (626194, 9704), (626402, 9704), (626611, 9704), (626820, 9704), (627029, 9703), (627238, 9703), (627447, 9703), (627656, 9704),
  (627866, 9704), (628075, 9704), (628284, 9704), (628494, 9705), (628703, 9705), (628913, 9705), (629122, 9706), (629332, 9706),
  (629542, 9707), (629752, 9708), (629962, 9708), (630172, 9709), (630382, 9710), (630592, 9711), (630802, 9712), (631012, 9713),
  (631223, 9714), (631433, 9715), (631643, 9716), (631854, 9717), (632065, 9719), (632275, 9720), (632486, 9722), (632697, 9723),
  (632908, 9725), (633119, 9727), (633330, 9728), (633541, 9730), (633752, 9732), (633963, 9734), (634175, 9736), (634386, 9738),
  (634598, 9740), (634809, 9742), (635021, 9744), (635232, 9746), (635444, 9748), (635656, 9750), (635868, 9752), (636080, 9753),
  (636292, 9755), (636504, 9757), (636716, 9759), (636928, 9761), (637141, 9763), (637353, 9765), (637565, 9767), (637778, 9769),
  (637990, 9771), (638203, 9772), (638416, 9774), (638629, 9775), (638842, 9777), (639055, 9779), (639268, 9781), (639481, 9782),
  (639694, 9784), (639907, 9786), (640120, 9787), (640334, 9789), (640547, 9790), (640761, 9792), (640974, 9793), (641188, 9794),
  (641402, 9796), (641615, 9797), (641829, 9798), (642043, 9799), (642257, 9801), (642471, 9802), (642686, 9803), (642900, 9804),
  (643114, 9805), (643328, 9807), (643543, 9808), (643757, 9809), (643972, 9810), (644187, 9811), (644401, 9812), (644616, 9813),
  (644831, 9814), (645046, 9814), (645261, 9815), (645476, 9816), (645691, 9817), (645906, 9818), (646122, 9819), (646337, 9820),
  (646553, 9821), (646768, 9821), (646984, 9822), (647199, 9823), (647415, 9824), (647631, 9824), (647847, 9825), (648063, 9826),
  (648279, 9827), (648495, 9827), (648711, 9828), (648927, 9828), (649144, 9829), (649360, 9830), (649576, 9830), (649793, 9831),
  (650009, 9832), (650226, 9832), (650443, 9833), (650660, 9834), (650877, 9834), (651094, 9835), (651311, 9835), (651528, 9836),
  (651745, 9837), (651962, 9837), (652179, 9838), (652397, 9839), (652614, 9839), (652832, 9840), (653049, 9841), (653267, 9841),
  (653485, 9842), (653703, 9842), (653921, 9843), (654139, 9844), (654357, 9844), (654575, 9845), (654793, 9845), (655011, 9846),
  (655230, 9847), (655448, 9848), (655666, 9848), (655885, 9849), (656104, 9849), (656322, 9850), (656541, 9850), (656760, 9851),
  (656979, 9851), (657198, 9852), (657417, 9853), (657636, 9853), (657855, 9854), (658075, 9854), (658294, 9855), (658513, 9856),
  (658733, 9856), (658952, 9857), (659172, 9857), (659392, 9858), (659612, 9858), (659831, 9859), (660051, 9859), (660271, 9860),
  (660492, 9861), (660712, 9862), (660932, 9862), (661152, 9863), (661373, 9863), (661593, 9864), (661814, 9864), (662034, 9865),
  (662255, 9865), (662476, 9866), (662696, 9866), (662917, 9867), (663138, 9868), (663359, 9868), (663580, 9869), (663802, 9869),
  (664023, 9870), (664244, 9870), (664466, 9871), (664687, 9872), (664909, 9872), (665130, 9873), (665352, 9874), (665574, 9874),
  (665796, 9875), (666018, 9875), (666240, 9876), (666462, 9877), (666684, 9877), (666906, 9878), (667128, 9879), (667351, 9879)]

/-- `o3trans.dat`, lines 2401-2600. -/
def ozone12 : List (Nat × Nat) := [
  (667573, 9880), (667796, 9880), (668018, 9881), (668241, 9882), (668464, 9882), (668687, 9883), (668910, 9884), (669133, 9884),
  (669356, 9885), (669579, 9885), (669802, 9886), (670025, 9887), (670248, 9887), (670472, 9888), (670695, 9888), (670919, 9889),
  (671143, 9889), (671366, 9890), (671590, 9891), (671814, 9891), (672038, 9892), (672262, 9892), (672486, 9893), (672710, 9894),
  (672934, 9894), (673159, 9895), (673383, 9895), (673608, 9896), (673832, 9896), (674057, 9897), (674281, 9897), (674506, 9898),
  (674731, 9898), (674956, 9899), (675181, 9899), (675406, 9900), (675631, 9900), (675856, 9901), (676082, 9901), (676307, 9902),
  (676532, 9902), (676758, 9903), (676983, 9903), (677209, 9904), (677435, 9904), (677661, 9905), (677887, 9905), (678113, 9906),
  (678339, 9906), (678565, 9907), (678791, 9907), (679017, 9907), (679243, 9908), (679470, 9908), (679696, 9909), (679923, 9909),
  (680150, 9909), (680376, 9910), (680603, 9910), (680830, 9910), (681057, 9911), (681284, 9911), (681511, 9911), (681738, 9912),
  (681965, 9912), (682193, 9912), (682420, 9913), (682648, 9913), (682875, 9913), (683103, 9913), (683330, 9914), (683558, 9914),
  (683786, 9914), (684014, 9915), (684242, 9915), (684470, 9915), (684698, 9916), (684927, 9916), (685155, 9916), (685383, 9917),
  (685612, 9917), (685840, 9918), (686069, 9918), (686298, 9918), (686526, 9919), (686755, 9919), (686984, 9920), (687213, 9920),
  (687442, 9921), (687671, 9921), (687900, 9922), (688130, 9922), (688359, 9923), (688589, 9923), (688818, 9924), (689048, 9924),
  (689277, 9925), (689507, 9925), (689737, 9926), (689967, 9926), (690197, 9927), (690427, 9927), (690657, 9928), (690887, 9928),
  (691118, 9929), (691348, 9929), (691578, 9930), (691809, 9930), (692040, 9930), (692270, 9931), (692501, 9931), (692732, 9932),
  (692963, 9932), (693194, 9932), (693425, 9933), (693656, 9933), (693887, 9934), (694118, 9934), (694350, 9935), (694581, 9935),
  (694813, 9936), (695044, 9936), (695276, 9936), (695508, 9937), (695740, 9937), (695972, 9938), (696204, 9938), (696436, 9939),
  (696668, 9939), (696900, 9939), (697132, 9940), (697365, 9940), (697597, 9941), (697830, 9941), (698062, 9941), (698295, 9942),
  (698528, 9942), (698761, 9942), (698994, 9943), (699227, 9943), (699460, 9943), (699693, 9944), (699926, 9944), (700159, 9944),
  (700393, 9945), (700626, 9945), (700860, 9945), (701093, 9946), (701327, 9946), (701561, 9946), (701795, 9946), (702029, 9946),
  (702263, 9947), (702497, 9947), (702731, 9947), (702965, 9948), (703199, 9948), (703434, 9948), (703668, 9948), (703903, 9948),
  (704137, 9949), (704372, 9949), (704607, 9949), (704842, 9949), (705077, 9949), (705312, 9950), (705547, 9950), (705782, 9950),
  (706017, 9950), (706253, 9950), (706488, 9951), (706724, 9951), (706959, 9951), (707195, 9951), (707431, 9951), (707666, 9951),
  (707902, 9952), (708138, 9952), (708374, 9952), (708610, 9952), (708847, 9952), (709083, 9952), (709319, 9953), (709556, 9953),
  (709792, 9953), (710029, 9953), (710265, 9953), (710502, 9953), (710739, 9953), (710976, 9953), (711213, 9953), (711450, 9954),
  (711687, 9954), (711924, 9954), (712162, 9954), (712399, 9954), (712637, 9954), (712874, 9954), (713112, 9954), (713349, 9954)]

/-- `o3trans.dat`, lines 2601-2800. -/
def ozone13 : List (Nat × Nat) := [
  (713587, 9954), (713825, 9954), (714063, 9954), (714301, 9954), (714539, 9954), (714777, 9955), (715016, 9955), (715254, 9955),
  (715492, 9955), (715731, 9955), (715969, 9955), (716208, 9955), (716447, 9956), (716686, 9956), (716925, 9956), (717164, 9956),
  (717403, 9957), (717642, 9957), (717881, 9957), (718120, 9957), (718360, 9958), (718599, 9958), (718839, 9958), (719078, 9959),
  (719318, 9959), (719558, 9959), (719798, 9960), (720037, 9960), (720277, 9960), (720518, 9961), (720758, 9961), (720998, 9962),
  (721238, 9962), (721479, 9962), (721719, 9962), (721960, 9963), (722200, 9963), (722441, 9963), (722682, 9964), (722923, 9964),
  (723164, 9964), (723405, 9964), (723646, 9965), (723887, 9965), (724129, 9965), (724370, 9965), (724611, 9965), (724853, 9966),
  (725095, 9966), (725336, 9966), (725578, 9966), (725820, 9967), (726062, 9967), (726304, 9967), (726546, 9967), (726788, 9967),
  (727030, 9968), (727273, 9968), (727515, 9968), (727758, 9968), (728000, 9968), (728243, 9969), (728486, 9969), (728728, 9969),
  (728971, 9969), (729214, 9970), (729457, 9970), (729701, 9970), (729944, 9970), (730187, 9970), (730431, 9970), (730674, 9971),
  (730918, 9971), (731161, 9971), (731405, 9971), (731649, 9971), (731893, 9971), (732137, 9971), (732381, 9972), (732625, 9972),
  (732869, 9972), (733113, 9972), (733358, 9972), (733602, 9972), (733847, 9972), (734091, 9972), (734336, 9972), (734581, 9972),
  (734826, 9972), (735071, 9972), (735316, 9972), (735561, 9972), (735806, 9972), (736051, 9972), (736296, 9972), (736542, 9972),
  (736787, 9973), (737033, 9973), (737279, 9973), (737524, 9973), (737770, 9973), (738016, 9973), (738262, 9973), (738508, 9973),
  (738754, 9973), (739001, 9973), (739247, 9973), (739493, 9973), (739740, 9973), (739987, 9973), (740233, 9973), (740480, 9972),
  (740727, 9972), (740974, 9972), (741221, 9972), (741468, 9972), (741715, 9972), (741962, 9972), (742209, 9972), (742457, 9972),
  (742704, 9972), (742952, 9972), (743200, 9972), (743447, 9971), (743695, 9971), (743943, 9971), (744191, 9971), (744439, 9971),
  (744687, 9971), (744935, 9971), (745184, 9971), (745432, 9971), (745681, 9971), (745929, 9971), (746178, 9971), (746427, 9971),
  (746675, 9971), (746924, 9971), (747173, 9971), (747422, 9971), (747671, 9971), (747921, 9971), (748170, 9971), (748419, 9971),
  (748669, 9971), (748918, 9972), (749168, 9972), (749418, 9972), (749668, 9972), (749917, 9973), (750167, 9973), (750417, 9973),
  (750668, 9974), (750918, 9974), (751168, 9974), (751419, 9975), (751669, 9975), (751920, 9975), (752170, 9976), (752421, 9976),
  (752672, 9976), (752923, 9977), (753174, 9977), (753425, 9977), (753676, 9978), (753927, 9978), (754178, 9978), (754430, 9979),
  (754681, 9979), (754933, 9979), (755184, 9980), (755436, 9980), (755688, 9980), (755940, 9980), (756192, 9981), (756444, 9981),
  (756696, 9981), (756948, 9981), (757201, 9981), (757453, 9982), (757705, 9982), (757958, 9982), (758211, 9982), (758463, 9982),
  (758716, 9982), (758969, 9982), (759222, 9983), (759475, 9983), (759728, 9983), (759982, 9983), (760235, 9983), (760488, 9983),
  (760742, 9983), (760995, 9983), (761249, 9983), (761503, 9983), (761757, 9983), (762011, 9983), (762265, 9983), (762519, 9983)]

/-- `o3trans.dat`, lines 2801-3000. -/
def ozone14 : List (Nat × Nat) := [
  (762773, 9983), (763027, 9983), (763281, 9983), (763536, 9983), (763790, 9983), (764045, 9983), (764300, 9983), (764554, 9983),
  (764809, 9983), (765064, 9983), (765319, 9983), (765574, 9983), (765830, 9983), (766085, 9983), (766340, 9983), (766596, 9983),
  (766851, 9983), (767107, 9983), (767362, 9983), (767618, 9983), (767874, 9983), (768130, 9983), (768386, 9983), (768642, 9983),
  (768898, 9983), (769155, 9983), (769411, 9983), (769668, 9983), (769924, 9983), (770181, 9983), (770438, 9983), (770694, 9982),
  (770951, 9982), (771208, 9982), (771465, 9982), (771722, 9982), (771980, 9982), (772237, 9982), (772494, 9982), (772752, 9982),
  (773010, 9981), (773267, 9981), (773525, 9981), (773783, 9981), (774041, 9981), (774299, 9980), (774557, 9980), (774815, 9980),
  (775073, 9980), (775332, 9980), (775590, 9979), (775849, 9979), (776107, 9979), (776366, 9979), (776625, 9979), (776884, 9979),
  (777143, 9979), (777402, 9979), (777661, 9978), (777920, 9978), (778179, 9978), (778439, 9978), (778698, 9978), (778958, 9978),
  (779217, 9978), (779477, 9978), (779737, 9978), (779997, 9979), (780257, 9979), (780517, 9979), (780777, 9979), (781037, 9979),
  (781298, 9979), (781558, 9979), (781819, 9980), (782079, 9980), (782340, 9980), (782601, 9980), (782862, 9981), (783123, 9981),
  (783384, 9981), (783645, 9981), (783906, 9982), (784167, 9982), (784429, 9982), (784690, 9983), (784952, 9983), (785213, 9983),
  (785475, 9983), (785737, 9984), (785999, 9984), (786261, 9984), (786523, 9984), (786785, 9984), (787047, 9984), (787310, 9985),
  (787572, 9985), (787835, 9985), (788097, 9985), (788360, 9985), (788623, 9985), (788886, 9986), (789149, 9986), (789412, 9986),
  (789675, 9986), (789938, 9986), (790201, 9986), (790465, 9986), (790728, 9987), (790992, 9987), (791255, 9987), (791519, 9987),
  (791783, 9987), (792047, 9987), (792311, 9988), (792575, 9988), (792839, 9988), (793104, 9988), (793368, 9988), (793632, 9988),
  (793897, 9988), (794162, 9988), (794426, 9989), (794691, 9989), (794956, 9989), (795221, 9989), (795486, 9989), (795751, 9989),
  (796016, 9989), (796282, 9989), (796547, 9989), (796813, 9989), (797078, 9989), (797344, 9989), (797610, 9989), (797876, 9989),
  (798142, 9989), (798408, 9989), (798674, 9989), (798940, 9989), (799206, 9990), (799473, 9990), (799739, 9990), (800006, 9990),
  (800272, 9990), (800539, 9990), (800806, 9990), (801073, 9990), (801340, 9990), (801607, 9990), (801874, 9990), (802142, 9990),
  (802409, 9990), (802677, 9990), (802944, 9990), (803212, 9990), (803479, 9990), (803747, 9990), (804015, 9990), (804283, 9990),
  (804551, 9990), (804819, 9990), (805088, 9990), (805356, 9990), (805625, 9990), (805893, 9990), (806162, 9989), (806430, 9989),
  (806699, 9989), (806968, 9989), (807237, 9989), (807506, 9989), (807775, 9989), (808045, 9989), (808314, 9989), (808583, 9988),
  (808853, 9988), (809123, 9988), (809392, 9988), (809662, 9988), (809932, 9988), (810202, 9988), (810472, 9987), (810742, 9987),
  (811012, 9987), (811283, 9987), (811553, 9987), (811824, 9987), (812094, 9987), (812365, 9986), (812636, 9986), (812907, 9986),
  (813178, 9986), (813449, 9986), (813720, 9986), (813991, 9986), (814262, 9986), (814534, 9986), (814805, 9985), (815077, 9985)]

/-- `o3trans.dat`, lines 3001-3200. -/
def ozone15 : List (Nat × Nat) := [
  (815349, 9985), (815620, 9985), (815892, 9985), (816164, 9985), (816436, 9985), (816708, 9985), (816981, 9985), (817253, 9985),
  (817525, 9985), (817798, 9986), (818071, 9986), (818343, 9986), (818616, 9986), (818889, 9986), (819162, 9986), (819435, 9986),
  (819708, 9986), (819981, 9987), (820255, 9987), (820528, 9987), (820802, 9987), (821075, 9987), (821349, 9988), (821623, 9988),
  (821897, 9988), (822170, 9988), (822445, 9989), (822719, 9989), (822993, 9989), (823267, 9989), (823542, 9989), (823816, 9990),
  (824091, 9990), (824366, 9990), (824640, 9990), (824915, 9991), (825190, 9991), (825465, 9991), (825740, 9991), (826016, 9991),
  (826291, 9992), (826566, 9992), (826842, 9992), (827118, 9992), (827393, 9992), (827669, 9992), (827945, 9993), (828221, 9993),
  (828497, 9993), (828773, 9993), (829049, 9993), (829326, 9993), (829602, 9993), (829879, 9993), (830155, 9994), (830432, 9994),
  (830709, 9994), (830986, 9994), (831263, 9994), (831540, 9994), (831817, 9994), (832094, 9994), (832372, 9994), (832649, 9994),
  (832927, 9994), (833204, 9994), (833482, 9994), (833760, 9995), (834038, 9995), (834316, 9995), (834594, 9995), (834872, 9995),
  (835150, 9995), (835429, 9995), (835707, 9995), (835986, 9995), (836265, 9995), (836543, 9995), (836822, 9995), (837101, 9995),
  (837380, 9995), (837659, 9995), (837938, 9995), (838218, 9995), (838497, 9995), (838777, 9995), (839056, 9995), (839336, 9995),
  (839616, 9995), (839896, 9995), (840176, 9995), (840456, 9995), (840736, 9995), (841016, 9995), (841296, 9995), (841577, 9995),
  (841857, 9995), (842138, 9995), (842419, 9995), (842699, 9995), (842980, 9995), (843261, 9995), (843542, 9994), (843824, 9994),
  (844105, 9994), (844386, 9994), (844668, 9994), (844949, 9994), (845231, 9994), (845513, 9994), (845794, 9994), (846076, 9994),
  (846358, 9994), (846641, 9994), (846923, 9993), (847205, 9993), (847487, 9993), (847770, 9993), (848053, 9993), (848335, 9993),
  (848618, 9993), (848901, 9992), (849184, 9992), (849467, 9992), (849750, 9992), (850033, 9992), (850317, 9992), (850600, 9991),
  (850884, 9991), (851167, 9991), (851451, 9991), (851735, 9991), (852019, 9991), (852303, 9990), (852587, 9990), (852871, 9990),
  (853155, 9990), (853440, 9990), (853724, 9990), (854009, 9990), (854293, 9990), (854578, 9990), (854863, 9990), (855148, 9990),
  (855433, 9991), (855718, 9991), (856003, 9991), (856289, 9991), (856574, 9991), (856860, 9991), (857145, 9991), (857431, 9991),
  (857717, 9991), (858003, 9991), (858289, 9992), (858575, 9992), (858861, 9992), (859147, 9992), (859434, 9992), (859720, 9992),
  (860007, 9992), (860293, 9993), (860580, 9993), (860867, 9993), (861154, 9993), (861441, 9993), (861728, 9994), (862015, 9994),
  (862303, 9994), (862590, 9994), (862878, 9994), (863165, 9994), (863453, 9994), (863741, 9995), (864029, 9995), (864317, 9995),
  (864605, 9995), (864893, 9995), (865181, 9995), (865470, 9995), (865758, 9995), (866047, 9996), (866336, 9996), (866624, 9996),
  (866913, 9996), (867202, 9996), (867491, 9996), (867780, 9996), (868070, 9996), (868359, 9996), (868649, 9996), (868938, 9996),
  (869228, 9996), (869517, 9997), (869807, 9997), (870097, 9997), (870387, 9997), (870677, 9997), (870968, 9997), (871258, 9997)]

/-- `o3trans.dat`, lines 3201-3400. -/
def ozone16 : List (Nat × Nat) := [
  (871548, 9997), (871839, 9997), (872130, 9997), (872420, 9997), (872711, 9997), (873002, 9997), (873293, 9997), (873584, 9997),
  (873875, 9997), (874167, 9997), (874458, 9997), (874749, 9997), (875041, 9997), (875333, 9997), (875624, 9997), (875916, 9997),
  (876208, 9997), (876500, 9997), (876793, 9997), (877085, 9997), (877377, 9997), (877670, 9997), (877962, 9997), (878255, 9997),
  (878548, 9997), (878840, 9997), (879133, 9997), (879426, 9997), (879720, 9997), (880013, 9997), (880306, 9997), (880600, 9997),
  (880893, 9997), (881187, 9997), (881480, 9997), (881774, 9997), (882068, 9997), (882362, 9997), (882656, 9997), (882951, 9997),
  (883245, 9997), (883539, 9997), (883834, 9997), (884128, 9997), (884423, 9997), (884718, 9997), (885013, 9997), (885308, 9997),
  (885603, 9997), (885898, 9997), (886193, 9997), (886489, 9997), (886784, 9997), (887080, 9997), (887376, 9997), (887671, 9997),
  (887967, 9997), (888263, 9997), (888559, 9997), (888856, 9997), (889152, 9997), (889448, 9997), (889745, 9997), (890041, 9997),
  (890338, 9997), (890635, 9997), (890932, 9997), (891229, 9997), (891526, 9997), (891823, 9997), (892120, 9997), (892418, 9997),
  (892715, 9997), (893013, 9996), (893310, 9996), (893608, 9996), (893906, 9996), (894204, 9996), (894502, 9996), (894800, 9996),
  (895098, 9996), (895397, 9996), (895695, 9996), (895994, 9996), (896292, 9996), (896591, 9996), (896890, 9996), (897189, 9996),
  (897488, 9996), (897787, 9996), (898087, 9996), (898386, 9996), (898685, 9996), (898985, 9996), (899285, 9996), (899584, 9996),
  (899884, 9996), (900184, 9996), (900484, 9996), (900784, 9996), (901085, 9996), (901385, 9996), (901685, 9996), (901986, 9996),
  (902287, 9996), (902587, 9996), (902888, 9996), (903189, 9997), (903490, 9997), (903791, 9997), (904093, 9997), (904394, 9997),
  (904696, 9997), (904997, 9997), (905299, 9997), (905601, 9997), (905902, 9997), (906204, 9997), (906506, 9997), (906809, 9997),
  (907111, 9997), (907413, 9998), (907716, 9998), (908018, 9998), (908321, 9998), (908624, 9998), (908927, 9998), (909230, 9998),
  (909533, 9998), (909836, 9998), (910139, 9998), (910443, 9998), (910746, 9998), (911050, 9998), (911353, 9998), (911657, 9998),
  (911961, 9998), (912265, 9998), (912569, 9998), (912873, 9998), (913178, 9998), (913482, 9998), (913786, 9998), (914091, 9998),
  (914396, 9998), (914700, 9998), (915005, 9998), (915310, 9998), (915615, 9998), (915921, 9998), (916226, 9999), (916531, 9999),
  (916837, 9999), (917143, 9999), (917448, 9999), (917754, 9999), (918060, 9999), (918366, 9999), (918672, 9999), (918978, 9999),
  (919285, 9999), (919591, 9999), (919898, 9999), (920204, 9999), (920511, 9999), (920818, 9999), (921125, 9999), (921432, 9999),
  (921739, 9999), (922046, 9999), (922354, 9999), (922661, 9999), (922969, 9999), (923276, 9999), (923584, 9999), (923892, 9999),
  (924200, 9999), (924508, 9999), (924816, 9999), (925124, 9999), (925433, 9999), (925741, 9999), (926050, 9999), (926358, 9999),
  (926667, 9999), (926976, 9999), (927285, 9999), (927594, 9999), (927903, 9999), (928213, 9999), (928522, 9999), (928832, 9999),
  (929141, 9999), (929451, 9999), (929761, 9999), (930071, 9999), (930381, 9999), (930691, 9999), (931001, 9999), (931311, 9999)]

/-- `o3trans.dat`, lines 3401-3600. -/
def ozone17 : List (Nat × Nat) := [
  (931622, 9999), (931932, 9999), (932243, 9999), (932554, 9999), (932865, 9999), (933176, 9999), (933487, 9999), (933798, 9999),
  (934109, 9999), (934420, 9999), (934732, 9999), (935043, 9999), (935355, 9999), (935667, 9999), (935979, 9998), (936291, 9998),
  (936603, 9998), (936915, 9998), (937227, 9998), (937540, 9998), (937852, 9998), (938165, 9998), (938478, 9998), (938791, 9998),
  (939103, 9998), (939416, 9998), (939730, 9998), (940043, 9998), (940356, 9998), (940670, 9998), (940983, 9997), (941297, 9997),
  (941611, 9997), (941925, 9997), (942238, 9997), (942553, 9997), (942867, 9997), (943181, 9997), (943495, 9997), (943810, 9997),
  (944125, 9997), (944439, 9997), (944754, 9997), (945069, 9997), (945384, 9997), (945699, 9997), (946014, 9997), (946330, 9997),
  (946645, 9997), (946961, 9997), (947276, 9997), (947592, 9997), (947908, 9998), (948224, 9998), (948540, 9998), (948856, 9998),
  (949172, 9998), (949489, 9998), (949805, 9998), (950122, 9998), (950439, 9998), (950755, 9998), (951072, 9998), (951389, 9998),
  (951707, 9998), (952024, 9998), (952341, 9998), (952659, 9998), (952976, 9999), (953294, 9999), (953612, 9999), (953929, 9999),
  (954247, 9999), (954565, 9999), (954884, 9999), (955202, 9999), (955520, 9999), (955839, 9999), (956157, 9999), (956476, 9999),
  (956795, 9999), (957114, 9999), (957433, 9999), (957752, 9999), (958071, 9999), (958391, 9999), (958710, 9999), (959030, 9999),
  (959349, 9999), (959669, 9999), (959989, 9999), (960309, 9999), (960629, 9999), (960949, 9999), (961270, 9999), (961590, 9999),
  (961911, 9999), (962231, 9999), (962552, 9999), (962873, 9999), (963194, 9999), (963515, 9999), (963836, 9999), (964157, 9999),
  (964479, 9999), (964800, 9999), (965122, 9999), (965444, 9999), (965765, 9999), (966087, 9999), (966409, 9999), (966732, 9999),
  (967054, 9999), (967376, 9999), (967699, 9999), (968021, 9999), (968344, 9999), (968667, 9999), (968989, 9999), (969312, 9999),
  (969636, 9999), (969959, 9999), (970282, 9999), (970606, 9999), (970929, 9999), (971253, 9999), (971576, 9999), (971900, 9999),
  (972224, 9999), (972548, 9999), (972873, 9999), (973197, 9999), (973521, 9999), (973846, 9999), (974170, 9999), (974495, 9999),
  (974820, 9999), (975145, 9999), (975470, 9999), (975795, 9999), (976120, 9999), (976446, 9999), (976771, 9999), (977097, 9999),
  (977422, 9999), (977748, 9999), (978074, 9999), (978400, 9999), (978726, 9999), (979053, 9999), (979379, 9999), (979705, 9999),
  (980032, 9999), (980359, 9999), (980685, 9999), (981012, 9999), (981339, 9999), (981666, 9999), (981994, 9999), (982321, 9999),
  (982648, 9999), (982976, 9999), (983304, 9999), (983631, 9999), (983959, 9999), (984287, 9999), (984615, 9999), (984944, 9999),
  (985272, 9999), (985600, 9999), (985929, 9999), (986257, 9999), (986586, 9999), (986915, 9999), (987244, 9999), (987573, 9999),
  (987902, 9999), (988232, 9999), (988561, 9998), (988891, 9998), (989220, 9998), (989550, 9998), (989880, 9998), (990210, 9998),
  (990540, 9998), (990870, 9997), (991200, 9997), (991531, 9997), (991861, 9997), (992192, 9997), (992523, 9998), (992853, 9998),
  (993184, 9998), (993515, 9998), (993847, 9998), (994178, 9998), (994509, 9998), (994841, 9998), (995172, 9998), (995504, 9998)]

/-- `o3trans.dat`, lines 3601-3614. -/
def ozone18 : List (Nat × Nat) := [
  (995836, 9998), (996168, 9998), (996500, 9998), (996832, 9998), (997164, 9998), (997497, 9998), (997829, 9998), (998162, 9998),
  (998495, 9998), (998827, 9998), (999160, 9998), (999493, 9998), (999827, 9998), (1000000, 10000)]

/-- `o3trans.dat`, included by src/atmosphere/ozone.rs:51: all 3614 lines. -/
def ozoneRaw : List (Nat × Nat) := List.flatten [ozone0, ozone1, ozone2, ozone3, ozone4, ozone5, ozone6, ozone7, ozone8, ozone9, ozone10, ozone11, ozone12, ozone13, ozone14, ozone15, ozone16, ozone17, ozone18]

end Verif.Passband
