import Verif.Tensor.Identity
/-!
Hints for claims of `tools/claims.py`.
-/

set_option maxRecDepth 100000

namespace Ebcc.Hints

def ip_CCD : List Nat := [
  1, 1, 1, 1, 1, 1, 65, 69, 65537, 65537, 67, 65, 65, 65537, 65537, 65537, 1, 1, 1, 1, 1, 1, 1, 1, 1, 1, 131143,
  65537, 134283268, 65538, 134283267, 69, 65537, 65537, 1, 65537, 67239941, 65537, 134283265, 134283265, 134283265,
  65537, 134283265, 65537, 66, 131143, 133187, 72, 133185, 65537, 134283265, 134283265, 134283265, 65, 131137, 131137,
  131137, 65, 65, 65538, 134283267, 1, 1, 1, 1, 1, 1, 65, 69, 65537, 65537, 67, 65537, 65, 65537, 65537, 65537, 1, 1,
  1, 1, 1, 1, 1, 1, 1, 1, 1, 134285313, 134286337, 65538, 65, 65537, 65, 65537, 65537, 1, 134283265, 66, 65537,
  134283265, 134283265, 65537, 65537, 134283265, 65541, 66, 132161, 135332865, 134286337, 135331841, 66561, 65,
  134209, 132165, 133187, 66, 133185, 1, 131141, 132161, 131138, 201459777, 1, 201458753, 132162, 1275202629, 1180738,
  201460805, 202508353, 202509377, 1180742, 1276250177, 1276251201, 132166, 201457729, 131141, 131138, 201458753,
  201457731, 131138, 201458753, 1179713, 1275202625, 1275200581, 1275201603, 131137, 201460801, 201458757, 201459779,
  1, 206158561345, 206158561347, 206158561345, 134217797, 135266369, 207232303169, 207232303169, 207232303169,
  134217793, 206158561347, 1, 206158561346, 134217794, 134217793, 207232303171, 207232303172, 135267394, 134218817,
  207233351747, 207233351748, 135266370, 135266369, 135267393, 206158561345, 134217793, 134217793, 206158561351]

def ea_CCD : List Nat := [
  1, 1, 1, 1, 1, 65, 65537, 67, 67, 65, 65, 65537, 69, 1, 1, 1, 1, 1, 1, 1, 1, 1, 1, 65537, 65538, 134283271, 66,
  134283268, 65537, 65537, 131138, 65, 65537, 1, 65537, 134283265, 65537, 67241985, 65, 134283265, 134283265,
  134283265, 65541, 65537, 134283265, 134283265, 65541, 65537, 134283265, 132161, 70, 67239937, 67239937, 65538,
  134283267, 65538, 134283265, 134283265, 134283265, 65538, 134283265, 134283265, 134283265, 65539, 65537, 65538,
  134283271, 1, 1, 1, 1, 1, 65, 65537, 67, 67, 65, 65, 69, 65537, 1, 1, 1, 1, 1, 1, 1, 1, 1, 1, 66, 132161, 134209,
  66, 65, 65, 65, 65537, 134283265, 1, 134285317, 134283269, 65, 69, 65538, 134283269, 65541, 65537, 134283265, 65538,
  134283269, 65541, 65537, 134283265, 65538, 134285313, 67108994, 134286343, 135331843, 66563, 65537, 134286337,
  134284293, 134285315, 66, 132161, 1, 131139, 132161, 131138, 201458753, 1, 201457729, 131141, 1275202627, 201460803,
  202509377, 1180743, 132162, 202507329, 1276251201, 132167, 1180738, 1276249153, 201457733, 131141, 201459777,
  201459777, 131138, 201459777, 1179714, 1275202625, 1275200581, 1275201603, 131138, 201460801, 201458757, 201459779,
  1, 206158561346, 206158561351, 206158561351, 134217795, 135266369, 207232303169, 207232303169, 207232303169,
  134217793, 206158561351, 1, 206158561349, 206158561350, 134217793, 134217797, 134217794, 207232303176, 135267395,
  135266369, 207232303175, 134218818, 207233351752, 135266371, 135267393, 207233351751, 134217793, 206158561347]

def ee_CCD : List Nat := [
  1, 1, 1, 1, 1, 1, 65, 65537, 67, 65537, 67, 65, 65, 65, 65537, 65537, 69, 65537, 1, 1, 1, 1, 1, 1, 1, 1, 1, 1, 1, 1,
  1, 65, 65537, 69, 65537, 65537, 65537, 67239941, 131137, 65538, 131143, 131140, 134283266, 65537, 65538, 134283265,
  65538, 134283267, 67239937, 67239937, 65539, 65537, 67239941, 131139, 131143, 65537, 65539, 67585, 134284289, 66561,
  135331841, 134284289, 134284289, 134217793, 65538, 134284289, 136380417, 65537, 65537, 65537, 65537, 69339137,
  134283265, 134283265, 65537, 134283265, 134283265, 134283265, 65537, 134283265, 134283265, 134283265, 65537,
  134283265, 134283265, 134283265, 65537, 65537, 134283265, 65537, 134283265, 134283265, 134283265, 134285313,
  136380417, 134285313, 136380417, 134283265, 65537, 134283265, 131137, 65, 65537, 134283265, 134283265, 134283265,
  65, 131137, 131137, 131137, 65, 131137, 131137, 131137, 65537, 134283265, 134283265, 134283265, 65539, 134217793,
  65, 65, 65538, 66, 131143, 65538, 134283267, 1, 1, 1, 1, 1, 1, 65, 65537, 67, 65537, 67, 65, 65, 65, 69, 65537,
  65537, 65537, 1, 1, 1, 1, 1, 1, 1, 1, 1, 1, 1, 1, 65537, 65537, 65538, 65538, 134286337, 65538, 134285313,
  134283265, 65537, 65539, 67585, 65537, 65537, 65, 134284289, 134283266, 66561, 135331841, 134283265, 65537, 65541,
  1, 65537, 65537, 136382469, 65537, 134283265, 65537, 65537, 134283265, 65537, 65537, 134283265, 65537, 65537, 65537,
  134283265, 65537, 134283265, 134283265, 65538, 65538, 136380417, 136380417, 131137, 69, 134283265, 134283266,
  134283265, 134283266, 65538, 131139, 67, 1182791, 136381441, 134286341, 136380417, 67589, 65, 134209, 132165,
  133187, 66, 132161, 65538, 134285313, 1, 133187, 201460801, 132165, 134209, 131142, 131138, 201458753, 131138,
  201459777, 1, 131141, 201457729, 2348944453, 1275202627, 3279942, 204606529, 3422686277, 201460803, 2231366,
  1278348353, 201460805, 3422686275, 1182790, 2352090177, 1275202629, 2348944451, 134214, 3425832001, 201458753,
  1276249153, 1275200577, 202507329, 1179714, 132162, 131138, 1180738, 201457733, 133186, 203556929, 2348943425,
  2351040577, 2348941381, 2230338, 2351040577, 201459777, 203556929, 201457731, 202507329, 1275199555, 1276249153,
  1275200579, 201458755, 2228289, 2348943429, 131137, 201459781, 201457729, 131141, 131137, 201460801, 201458757,
  201459779, 3276865, 3422686273, 3422684229, 3422685251, 2228289, 2348944449, 2348942405, 2348943427, 1179713,
  1275202625, 1275200581, 1275201603, 1, 206158561348, 208306044994, 206158561346, 206158561348, 134217794,
  208306044999, 136314947, 208306044999, 207232303169, 207232303171, 207232303169, 135266373, 137363521, 209379786817,
  209379786817, 209379786817, 134217793, 206158561351, 134217793, 206158561347, 1, 134217793, 206158561349, 134217793,
  209379786820, 137366594, 134218817, 209380835396, 137365570, 134219841, 209381883972, 137364546, 134220865,
  209382932548, 137363522, 134218818, 135266369, 134217794, 135267393, 208308142147, 136314945, 208306044995,
  208306044995, 136316993, 208308142147, 207233351746, 207232303170, 134219841, 134217793, 207232303175, 207233351751,
  206158561345, 134217793]

def ip_CCSD : List Nat := [
  1, 1, 1, 1, 1, 1, 1, 1, 1, 1, 1, 65537, 65, 134283268, 67239937, 65537, 65539, 65537, 65537, 65537, 65, 65537,
  201457729, 206158561345, 134283266, 67239937, 131139, 67239941, 134217795, 67239937, 134283268, 2228290, 134283266,
  134283268, 65537, 69, 65537, 67, 65, 65, 65537, 66, 65, 134283265, 65, 65537, 65, 65, 1, 1, 1, 1, 1, 1, 1, 1, 1, 1,
  1, 1, 134283268, 65, 134283265, 134283269, 131143, 131143, 66, 131137, 131143, 201457731, 137640345601, 67239941,
  206292713475, 206292713474, 135331845, 134283268, 134283268, 65538, 134283267, 69, 65541, 134283265, 67239938,
  65537, 134283265, 206225670146, 1, 65541, 65537, 65538, 67239941, 1, 65537, 134283265, 67239941, 134283265,
  134283265, 65537, 134283265, 134283265, 206292713473, 134283265, 206292713473, 206292713473, 65537, 134283265,
  134283265, 206292713473, 134283265, 134283265, 134283265, 206292713473, 65537, 131143, 131143, 66, 131138,
  201457735, 134285313, 134283272, 206294810627, 206225670148, 134285315, 206294810627, 281681202380804, 65544,
  206292713473, 134283265, 134283265, 134283265, 206292713473, 206292713473, 206292713473, 206292713473,
  281681269424129, 134283265, 65537, 134283265, 206292713473, 134283265, 206292713473, 134283265, 134283265,
  134283265, 206292713473, 206292713473, 206292713473, 206292713473, 281681269424129, 134283265, 65537, 134283265,
  206292713473, 134283265, 131138, 65, 65, 131140, 65538, 134283265, 134283271, 134283267, 206292713475, 1, 1, 1, 1,
  1, 1, 1, 1, 1, 1, 1, 65537, 65, 67239937, 67239937, 65537, 65539, 65537, 65, 65537, 65537, 65537, 65537, 65541,
  201457729, 137640345601, 67239937, 67239937, 131137, 67239941, 134217793, 134217793, 134283266, 2228290, 134283266,
  134283268, 65537, 65539, 65, 65, 65537, 66, 65, 134283265, 65, 65537, 65, 65, 1, 1, 1, 1, 1, 1, 1, 1, 1, 1, 1, 1,
  65, 134283265, 134286337, 65538, 67108994, 206225670145, 133185, 65537, 65541, 65537, 134283265, 66, 131137,
  134414402, 131141, 1, 65541, 65, 65538, 67239941, 134283265, 206292713473, 65537, 65537, 65537, 134283265,
  134283265, 134283265, 1, 65537, 65541, 67108993, 134283265, 65537, 206292713473, 134283265, 134283265, 134283265,
  65537, 134283265, 65537, 134283265, 206292713473, 134283265, 134283265, 206292713473, 65541, 135331845, 131143,
  132161, 66, 131137, 134414402, 131139, 72, 1182785, 201457729, 206292910145, 132161, 131141, 1179713, 131137,
  202506305, 204603457, 1208156225, 201457729, 69, 132165, 133187, 202506305, 131138, 203554881, 134414406, 134414404,
  137640542276, 134414401, 131142, 65, 204603457, 131138, 134209, 65538, 134283265, 134285313, 206225670146,
  134283269, 1, 201457729, 131141, 132161, 202506305, 131138, 201457729, 201457733, 201459777, 275012321346, 1,
  201458753, 202508353, 1275199557, 1180742, 202506307, 202509377, 276086063169, 1276248133, 275082510401,
  1374523949125, 1276250177, 201457733, 132166, 1276248131, 1276251201, 1375597690945, 202506309, 1374594138177,
  275012321349, 132162, 202506305, 202506309, 276086063170, 1275199554, 1275202629, 1180738, 1276248129, 1276248133,
  1375597690946, 201457730, 201460805, 201457729, 275079364673, 131141, 201457731, 201458753, 131138, 201457729,
  275012321347, 201458753, 201457733, 275079364673, 275079364675, 201457731, 275080413249, 352050013798465, 131138,
  1374523949121, 1275199558, 1275200581, 1275201603, 1374592041025, 1374593089601, 1374523949126, 1374523949124,
  1477881268273220, 1275199554, 1179713, 1275202625, 1374594138177, 1275199554, 275012321345, 201457734, 201458757,
  201459779, 275080413249, 275081461825, 275012321350, 275012321348, 351981361430596, 201457730, 131137, 201460801,
  275082510401, 201457730, 1, 206158561347, 281475178168387, 360288245269004355, 206158561345, 206158561347,
  206158561349, 206158561345, 281475178168387, 281475178168387, 281475178168387, 281475178168385, 134217797,
  207232303169, 207232303169, 282574689796161, 207232303169, 282574689796161, 282574689796161, 282574689796161,
  361414145175846977, 282574689796161, 207232303169, 135266369, 282574689796161, 207232303169, 207232303169,
  134217793, 206158561345, 206158561347, 281475178168387, 206158561347, 1, 206158561346, 207232303171, 135267394,
  282574689796164, 207233351748, 207232303170, 207232303172, 134217793, 206158561348, 207233351747, 135266370,
  282575763537988, 207232303172, 207233351746, 207233351748, 134218817, 206159609924, 135266369, 207232303169,
  282574689796163, 207232303171, 135267393, 207233351745, 282575763537987, 207233351747, 206158561345,
  281475178168385, 134217793, 206158561345, 206158561351, 206158561351, 134217793, 206158561346, 281475178168391,
  206158561346, 134217794]

def ea_CCSD : List Nat := [
  1, 1, 1, 1, 1, 1, 1, 1, 1, 1, 1, 65, 67239937, 65539, 65537, 65, 65537, 65537, 137640345601, 67239937, 67239941,
  134217793, 2228293, 136380418, 134283268, 65537, 67, 67, 65, 65, 65537, 65, 66, 131137, 65537, 65, 65, 69, 1, 1, 1,
  1, 1, 1, 1, 1, 1, 1, 1, 1, 1, 131140, 66, 65, 131138, 65, 65537, 1, 65, 134283265, 65541, 65537, 134283265, 65537,
  134283266, 131138, 65539, 134283266, 65537, 65, 131138, 65, 65538, 134283271, 1179716, 68719673476, 1179716,
  68920803458, 1090, 67108994, 137640345601, 67239941, 67239937, 137506258945, 67239939, 65537, 134283265, 67239939,
  137640345603, 67239938, 1, 65537, 134283265, 65541, 65537, 67241985, 65, 134283265, 134283265, 206292713473,
  134283265, 206292713473, 65537, 134283265, 206292713473, 134283265, 134283265, 206292713473, 65541, 134283269,
  134283265, 134283265, 206292713473, 134283265, 206292713473, 65537, 134283265, 206292713473, 134283265, 134283265,
  206292713473, 65541, 134283269, 134283265, 134283265, 134283265, 134283265, 131140, 202506311, 132161, 70, 65538,
  134283271, 134283267, 206292713475, 134283265, 67239937, 67239937, 137640345603, 206292648001, 281681135272001,
  206292648001, 201457729, 131141, 131137, 131137, 201457729, 201457729, 201457729, 201457729, 275079364673, 131137,
  66, 131137, 201457729, 131137, 206292713473, 134283269, 134283265, 134283265, 206292713473, 206292713473,
  206292713473, 206292713473, 281681269424129, 134283265, 65538, 134283265, 206292713473, 134283265, 65539, 65,
  131140, 134283271, 134283271, 65538, 67239937, 67239937, 137506258945, 1, 1, 1, 1, 1, 1, 1, 1, 1, 1, 1, 65,
  67239937, 65539, 65537, 65537, 65537, 65537, 206158561345, 65537, 67239937, 67239941, 65537, 67239937, 2228293,
  2228290, 134283268, 67, 65539, 65, 65, 65541, 65537, 66, 131137, 65537, 65, 65537, 1, 1, 1, 1, 1, 1, 1, 1, 1, 1, 1,
  1, 1, 65537, 65538, 67239941, 134283265, 1, 65541, 65537, 134283265, 134283265, 65, 65537, 71, 131143, 134284289,
  65538, 134283265, 206225670146, 134209, 131137, 134414401, 65, 65537, 65537, 134283265, 65537, 134283265, 65541,
  65537, 134283271, 65539, 135266369, 135266369, 1, 1, 1, 134283269, 65, 69, 134283269, 134283269, 206292713477,
  134283265, 65537, 134283265, 206292713473, 65541, 134283269, 65538, 134283269, 134283269, 134283269, 206292713477,
  134283265, 65537, 134283265, 206292713473, 65541, 134283269, 65538, 134283269, 134283265, 134283265, 134283269,
  206292713477, 65538, 134285313, 134283269, 206225670146, 134283265, 134283269, 134283269, 134283269, 135334919,
  206292713473, 134283267, 65539, 69997691013, 68920803461, 67108995, 142111877955781, 138512761027, 132165, 133187,
  202506305, 131138, 203554881, 134414406, 134414404, 137640542276, 134414401, 131142, 65, 204603457, 131138, 134209,
  134284289, 134283271, 65538, 67108994, 67108994, 68719673479, 68719673479, 1, 131139, 132161, 202506305, 201457731,
  201458753, 131138, 201457729, 201457729, 275012321347, 1, 201457729, 131141, 1275199555, 202506307, 275012321347,
  202509377, 1374594138177, 132162, 202507329, 1375597690945, 1276248133, 1276248129, 1375597690947, 1180743,
  1275199555, 201457731, 1276248131, 1374523949123, 1276251201, 275082510401, 1180738, 1276249153, 276086063169,
  202506309, 202506305, 276086063171, 132167, 201457731, 202506307, 1275202627, 1276248131, 201460803, 201457733,
  275079364673, 201457733, 131141, 131138, 201457733, 201459777, 275012321346, 201457729, 201459777, 201459777,
  275081461825, 275079364673, 351981428473921, 275079364677, 1374523949121, 1275199555, 1275200581, 1275201603,
  1374592041025, 1374593089601, 1374523949126, 1374523949124, 1477881268273220, 1275199554, 1179714, 1275202625,
  1374594138177, 1275199554, 275012321345, 201457731, 201458757, 201459779, 275080413249, 275081461825, 275012321350,
  275012321348, 351981361430596, 201457730, 131138, 201460801, 275082510401, 201457730, 1, 206158561347, 206158561351,
  281475178168391, 206158561351, 134217795, 281475178168391, 281475178168391, 206158561351, 360288245269004359,
  281475178168391, 207232303169, 207232303169, 282574689796161, 207232303169, 282574689796161, 282574689796161,
  282574689796161, 361414145175846977, 282574689796161, 207232303169, 135266369, 282574689796161, 207232303169,
  207232303169, 206158561351, 206158561351, 134217793, 206158561346, 206158561346, 281475178168391, 281475178168391,
  1, 206158561349, 134217793, 134217797, 207232303176, 207232303175, 282574689796168, 207232303175, 135266369,
  207232303170, 282574689796167, 135267395, 207233351752, 134217794, 206158561352, 207233351752, 207233351751,
  282575763537992, 207233351751, 135267393, 207233351746, 282575763537991, 135266371, 207232303176, 134218818,
  206159609928, 207232303175, 207233351751, 206158561349, 281475178168389, 134217793, 206158561347, 206158561347,
  281475178168387, 206158561345, 206158561350, 206158561350]

def ee_CCSD : List Nat := [
  1, 1, 1, 1, 1, 1, 1, 1, 1, 1, 1, 1, 65537, 65, 134283268, 67239937, 65537, 65539, 65537, 65537, 65537, 65, 65537,
  201457731, 137640345601, 134283266, 67239937, 131137, 67239941, 134217793, 67239937, 2228293, 134283268, 2228290,
  131138, 134283268, 65537, 67, 65537, 67, 65, 65, 65, 65537, 65537, 66, 65, 134283265, 65, 65537, 65, 65, 69, 1, 1,
  1, 1, 1, 1, 1, 1, 1, 1, 1, 1, 1, 1, 65, 67239937, 65537, 65, 65537, 134283266, 131140, 65, 65537, 134283266,
  134283266, 134283268, 65539, 131138, 65537, 134283266, 65541, 65537, 67585, 134217793, 134283265, 65537, 65537,
  65537, 134283265, 65, 201457731, 67239937, 131138, 65, 134283269, 206158561345, 69337089, 139653742593, 67239941,
  275079364675, 131137, 67239939, 137506258945, 206158561351, 66, 131137, 201457731, 131143, 131139, 131137,
  201457735, 67239941, 206158561345, 134217793, 134217793, 206158561347, 65537, 134283266, 65538, 134283267,
  206292713475, 206292713475, 134283271, 134283266, 131138, 67239943, 134283271, 134283271, 131140, 131140, 65538,
  134217797, 206158561345, 206158561347, 206292648001, 1, 65, 65541, 65541, 65538, 206292713475, 206292713474,
  211243939987457, 136380417, 208440197121, 136380417, 206294810625, 134284289, 206225670146, 134284289, 206293762049,
  66561, 135331841, 207366455297, 135331841, 135331841, 206293762049, 134284289, 134284289, 206293762049, 65537,
  65539, 67585, 136380417, 136380417, 134283265, 206292713473, 206292713473, 206292713473, 1, 65537, 134283268, 65542,
  65537, 65541, 65537, 206292713473, 134283265, 134283265, 281681269424129, 134283265, 134283265, 206292713473,
  134283265, 206292713473, 134283265, 206292713473, 134283265, 206292713473, 65537, 134283265, 206292713473,
  134283265, 134283265, 206292713473, 134283265, 134283265, 206292713473, 134283265, 65537, 134283265, 134283265,
  134283265, 134283265, 206292713473, 206292713473, 206292713473, 134283265, 134283265, 134283265, 65537, 134283265,
  134283265, 134283265, 134283265, 206292713473, 206292713473, 206292713473, 134283265, 134283265, 134283265, 65537,
  134283265, 134283265, 134283265, 134283265, 206292713473, 206292713473, 206292713473, 134283265, 134283265,
  281681269424129, 136380417, 136380417, 134285313, 206294810625, 206294810625, 136380417, 136380417, 134285313,
  206294810625, 206294810625, 206292713473, 206292713473, 206292713473, 206292713473, 206292713473, 206292713473,
  134283267, 65539, 67585, 134283267, 65539, 67585, 134283267, 65538, 134283267, 65538, 201457729, 131137, 65, 131137,
  131137, 136315969, 208305979523, 275079364673, 131137, 201457729, 131137, 131137, 131137, 201457729, 201457729,
  201457729, 201457729, 65, 131137, 131137, 201457729, 275079364673, 131137, 201457729, 131137, 131137, 131137,
  201457729, 201457729, 201457729, 201457729, 65, 131137, 131137, 201457729, 275079364673, 131137, 201457729, 131137,
  131137, 131137, 201457729, 201457729, 201457729, 201457729, 65, 131137, 131137, 201457729, 281681269424129,
  134283265, 206292713473, 134283265, 134283265, 134283265, 206292713473, 206292713473, 206292713473, 206292713473,
  65537, 134283265, 134283265, 206292713473, 65539, 67239937, 134283266, 65537, 65537, 134283268, 131140, 66,
  134283271, 134283271, 65538, 66, 131137, 201457731, 131143, 131139, 67239937, 137640345601, 67239941, 67239937,
  137506258945, 1, 1, 1, 1, 1, 1, 1, 1, 1, 1, 1, 1, 65537, 65, 67239937, 67239937, 65537, 65539, 65537, 65, 65537,
  65537, 65537, 201457729, 137640345601, 67239937, 67239937, 131137, 67239941, 65537, 134217793, 134217793, 136380421,
  131138, 136380418, 134283266, 134283268, 67, 65537, 65539, 65, 65, 65, 65541, 65537, 65537, 66, 65, 134283265, 65,
  65537, 65, 65, 1, 1, 1, 1, 1, 1, 1, 1, 1, 1, 1, 1, 1, 1, 65, 65537, 65537, 65537, 65541, 65, 67108993, 65537, 65538,
  134283265, 134283265, 134283265, 65538, 134283265, 134285313, 206225670146, 134283269, 67108994, 68719673479,
  134283265, 131137, 134209, 206225670145, 67108994, 66, 65537, 135266369, 65539, 67585, 66561, 135331841, 135331841,
  207366455297, 135331841, 134283266, 134283266, 136380417, 208440197121, 65537, 134283265, 65541, 134284289,
  134283271, 65, 1, 65, 137363521, 1, 1, 65541, 65541, 65537, 134283269, 1, 136380421, 65537, 65537, 134283265,
  206292713473, 134283265, 134283265, 65537, 134283265, 65537, 134283265, 206292713473, 134283265, 134283265, 65537,
  134283265, 65537, 134283265, 206292713473, 134283265, 134283265, 65537, 134283265, 134283265, 134283265,
  206292713473, 65537, 134283265, 134283265, 206292713473, 134283265, 134283265, 134283265, 134283267, 65539, 67585,
  134283267, 65539, 67585, 65538, 65538, 136380417, 136380417, 136380417, 136380417, 134283265, 206292713473, 65541,
  136380421, 136380421, 208440197125, 206292713473, 68920803457, 134283265, 131141, 1182791, 201457729, 131139, 67,
  134283269, 136380421, 136383493, 206292713473, 281612482969601, 134284289, 134283265, 206293762049, 206295859201,
  208373153797, 206292713473, 65541, 208373153797, 209450041349, 136380419, 142111877955781, 138512761027, 131142,
  132165, 133187, 131138, 202506305, 203554881, 134414406, 134414404, 137640542276, 134414401, 65, 204603457, 131138,
  134209, 67108993, 137506062529, 134283265, 65543, 67108994, 67108994, 132161, 131143, 66, 65538, 134283265,
  134285313, 206225670146, 134283269, 134283266, 206292713479, 134283266, 206292713479, 1, 133187, 201460801,
  202506305, 132165, 134209, 204603457, 201457731, 131142, 201458753, 201457731, 131138, 131138, 201457729,
  275012321346, 201457733, 201459777, 203554881, 275012321345, 201457733, 201457729, 275012321347, 1, 131141,
  275079364675, 1275200579, 1374590992451, 201458755, 1276249153, 352050013798465, 201458753, 1276248129,
  1375597690947, 1275199555, 275080413249, 202507329, 1477949920641089, 1275200577, 202506305, 276086063171,
  201457731, 1374592041025, 2348943429, 2474102620229, 201457733, 275079364673, 133186, 203554881, 277159804994,
  203554885, 203556929, 275081461825, 2351040577, 2348943425, 2474104717377, 201459781, 275079364677, 2348941381,
  2474102620225, 2230338, 2351038529, 2476183060546, 2351038533, 2351040577, 2474104717377, 203556929, 201459777,
  275081461825, 1275202627, 3279942, 3422683206, 204603459, 204606529, 3425828933, 1377745174593, 275012321347,
  1374594138177, 2348941378, 2348944453, 201460803, 2231366, 2348941382, 1278345283, 1278348353, 2352087109,
  278233546817, 1374523949123, 275082510401, 3422683202, 3422686277, 3422686275, 1182790, 1275199558, 2352087107,
  2352090177, 1278345285, 3576768430145, 2474035576899, 3573617393729, 201457730, 201460805, 2348944451, 134214,
  201457734, 3425828931, 3425832001, 204603461, 2477256802369, 3573547204675, 2474105765953, 1275199554, 1275202629,
  351981428473921, 2603781242159169, 202507329, 202506307, 201457731, 275080413249, 275079364673, 1276249153,
  1276248131, 1275199555, 1374592041025, 1374590992449, 275082510401, 2474035576901, 1374594138177, 3573547204677,
  2474105765953, 275012321349, 3573617393729, 1374523949125, 201457733, 1179714, 132162, 1275199557, 131138, 1180738,
  201457733, 2228289, 2348941381, 131137, 275079364673, 201457729, 131141, 2348941381, 201457733, 201457729,
  275079364673, 351981361430596, 201457730, 275012321345, 201457734, 201458757, 201459779, 275080413249, 275081461825,
  275012321350, 275012321348, 131137, 201457730, 201460801, 275082510401, 3729681081958468, 3422683202, 3573547204673,
  3422683206, 3422684229, 3422685251, 3573615296577, 3573616345153, 3573547204678, 3573547204676, 3276865, 3422683202,
  3422686273, 3573617393729, 2603781175115844, 2348941378, 2474035576897, 2348941382, 2348942405, 2348943427,
  2474103668801, 2474104717377, 2474035576902, 2474035576900, 2228289, 2348941378, 2348944449, 2474105765953,
  1477881268273220, 1275199554, 1374523949121, 1275199558, 1275200581, 1275201603, 1374592041025, 1374593089601,
  1374523949126, 1374523949124, 1179713, 1275199554, 1275202625, 1374594138177, 1, 281475178168388, 281475178168388,
  206158561346, 208306044995, 208306044999, 283674201423943, 208306044999, 136314947, 207232303171, 207232303173,
  207232303171, 282574689796163, 361414145175846979, 207232303169, 207232303169, 282574689796163, 282574689796163,
  282574689796163, 282574689796161, 135266373, 283674201423943, 283674201423943, 208306044999, 362540045082689607,
  283674201423943, 209379786817, 209379786817, 209379786817, 209379786817, 284773713051713, 284773713051713,
  284773713051713, 284773713051713, 363665944989532225, 284773713051713, 137363521, 284773713051713, 209379786817,
  209379786817, 206158561348, 281475178168388, 206158561346, 134217794, 206158561348, 206158561348, 206158561351,
  206158561351, 134217793, 134217793, 206158561345, 206158561347, 281475178168387, 206158561347, 206158561346,
  281475178168391, 208306044994, 283674201423943, 1, 206158561349, 134217793, 137366594, 209382932548,
  284773713051716, 209379786818, 209379786820, 134217793, 206158561348, 137365570, 209381883972, 284774786793540,
  209380835394, 209380835396, 134218817, 206159609924, 137364546, 209380835396, 284775860535364, 209381883970,
  209381883972, 134219841, 206160658500, 137363522, 209379786820, 284776934277188, 209382932546, 209382932548,
  134220865, 206161707076, 207233351746, 207232303170, 282574689796167, 207232303170, 207233351746, 282575763537991,
  136314945, 208306044993, 208306044995, 283674201423939, 208306044995, 206160658499, 208308142147, 136316993,
  208308142145, 208308142147, 283676348907587, 208308142147, 206158561347, 208306044995, 206158561346, 134218818,
  135266369, 206159609922, 134217794, 135267393, 134219841, 134217793, 207232303175, 207232303175, 207233351751,
  207233351751, 206158561345, 281475178168385, 134217793, 206158561345, 206158561349, 281475178168389]

def ip_MP2 : List Nat := [
  1, 1, 65, 1, 1, 1, 1, 1, 1, 65537, 65537, 65, 65538, 65537, 65537, 65538, 134285313, 134283267, 1, 1, 65, 1, 1, 1,
  1, 1, 1, 65537, 65537, 65, 65538, 65537, 65537, 65538, 134285313, 134283267, 1, 131141, 131138, 201457731,
  201459777, 1, 131138, 131138, 132162, 1180738, 1, 134217797, 134217793, 206158561347, 206158563393, 1, 134217793,
  134217794, 135266369, 135267393]

def ea_MP2 : List Nat := [
  1, 1, 65541, 1, 1, 1, 1, 1, 65, 65537, 69, 65, 65537, 65537, 67, 65538, 134284289, 134283271, 1, 1, 65541, 1, 1, 1,
  1, 1, 65, 65537, 69, 65, 65537, 65537, 67, 65538, 134284289, 134283271, 1, 131139, 131138, 201457735, 201458753, 1,
  131141, 131138, 132162, 1180738, 1, 134217795, 134217793, 206158561351, 206158562369, 1, 134217797, 134217793,
  135266369, 135267393]

def jac_CCD : List Nat := [
  1, 1, 1, 1, 1, 1, 1, 69, 65, 65537, 134217797, 65538, 134283268, 67239937, 65, 65537, 65537, 65, 66561, 66561,
  134283265, 134283265, 134284289, 68288515, 67585, 67585, 65537, 65537, 65537, 69, 131137, 1, 1, 1, 1, 1, 1, 65,
  65537, 67, 65537, 67, 65, 65, 65, 65537, 65537, 69, 65537, 1, 1, 1, 1, 1, 1, 1, 1, 1, 1, 1, 1, 65537, 69, 65537,
  67239941, 65538, 131140, 65537, 65538, 134283267, 67239937, 131143, 65537, 67585, 66561, 135331841, 134284289,
  136380417, 65537, 65537, 65537, 69339137, 65537, 134283265, 65537, 134283265, 65537, 134283265, 134283265, 65537,
  65537, 134283265, 134283265, 136380417, 136380417, 131137, 65, 65539, 65, 65, 65537, 1, 65537, 65537, 134283265,
  134283265, 134283265, 134283265, 134283265, 134283265, 65537, 65537, 65537, 65537, 65537, 65537, 65537, 134283265,
  65537, 65537, 65537, 67239940, 134283265, 67239940, 134283265, 67239938, 134283265, 67239938, 134283265, 67239939,
  134283265, 67239939, 134283265, 65537, 65537, 65537, 65537, 65537, 65537, 65537, 67239937, 134283265, 65537,
  134283265, 65537, 134283265, 65537, 134283265, 65537, 134283265, 65537, 134283265, 134283265, 134283265, 65537,
  65537, 65537, 134283265, 134283265, 65537, 134283265, 134283265, 134283265, 134283265, 134283265, 65537]

def jac_CC2 : List Nat := [
  1, 1, 1, 1, 1, 1, 1, 1, 1, 1, 1, 1, 65537, 65537, 134283267, 65, 65537, 134217795, 65, 65537, 201457735, 131137,
  131138, 65, 65543, 206292713475, 65537, 65, 65, 65, 134217793, 131143, 135331841, 137640345602, 206225670148, 65,
  65, 1, 65539, 65537, 2113, 65666, 67239939, 65538, 206292713473, 134283265, 134283265, 134283265, 134283265,
  134283265, 206292713473, 67585, 67585, 65538, 65538, 66561, 66561, 66, 134217793, 281475178168385, 65537, 66, 65537,
  134283266, 67587, 67239940, 65537, 134283268, 66, 131137, 134217797, 134217793, 206158561345, 1, 1, 1, 1, 1, 1, 1,
  1, 1, 65, 65, 65537, 65537, 67, 65537, 67, 65537, 65537, 65537, 131137, 65, 65, 65537, 65, 67239937, 65541, 65537,
  65537, 65537, 65539, 65537, 1, 1, 1, 1, 1, 1, 1, 1, 1, 1, 1, 1, 1, 1, 65537, 65, 65, 65537, 69, 65537, 65537, 65537,
  134217797, 134283265, 134217793, 67239941, 134217793, 134217793, 65538, 134283265, 134283267, 134283265, 131143,
  134283267, 131140, 134283271, 65538, 134283266, 65, 66, 65539, 1, 65538, 134284289, 65537, 134284289, 66561,
  135331841, 135331841, 134284289, 134284289, 136380417, 65539, 67585, 134217793, 1, 134283265, 65537, 65537, 65541,
  65537, 65537, 134283268, 65542, 65537, 134283266, 65537, 136316993, 134283265, 134283265, 134283265, 65537,
  134283265, 134283265, 134283265, 65537, 134283265, 134283265, 134283265, 65537, 134283265, 134283265, 134283265,
  134283265, 134283265, 65537, 134283265, 134283265, 134283265, 134283265, 65537, 134283265, 65537, 65537, 134285313,
  136380417, 134285313, 136380417, 131137, 65, 134283265, 206292713473, 134283265, 134283265, 65537, 134283265,
  134283265, 134283265, 206292713473, 134283265, 134283265, 65537, 134283265, 134283265, 131137, 201457729, 131137,
  131137, 65, 131137, 131137, 134283265, 206292713473, 134283265, 134283265, 65537, 134283265, 134283265, 67239937,
  65539, 134283266, 65537, 65, 131140, 134283268, 65538, 131143, 131143, 66, 134217793, 206158561345, 134217797,
  134217793, 206292648001, 65538, 134283265, 206292713475, 134283271, 134283267, 1, 65537, 65537, 65537, 134283265,
  65537, 134283265, 65537, 134283265, 65537, 134283265, 134283265, 134283265, 206292713473, 65537, 65537, 65537,
  67239938, 134283265, 65537, 67239938, 134283265, 65537, 67239940, 134283265, 65537, 67239937, 134283265, 67239938,
  134283265, 67239939, 134283265, 68920934402, 137640345603, 206292713473, 134283265, 65537, 134283265, 65537, 65537,
  134283265, 134283265, 65537, 134283265, 134283265, 65537, 134283265, 206292713473, 134283265, 134283265,
  206292713473, 65537, 134283265, 206292713473, 134283265, 134283265]

def jac_CCSD : List Nat := [
  1, 1, 1, 1, 1, 1, 1, 1, 1, 1, 1, 1, 65, 65, 65537, 67239937, 65537, 65537, 65, 65537, 65, 65537, 65, 65, 65539,
  65537, 134283266, 67585, 67585, 69, 65537, 201457731, 134283271, 65537, 131141, 68719673477, 131137, 134217793,
  131140, 3138, 65666, 67239941, 134283266, 67239937, 137506258945, 67239937, 67239939, 67239941, 134283266, 65537,
  65538, 65538, 135331841, 207366455297, 135331841, 134284289, 135331841, 137640345602, 137640345601, 131140,
  136380417, 136380417, 65, 206225670148, 65539, 67585, 65, 2113, 65666, 2113, 65666, 1, 65539, 134283265, 134283265,
  134283265, 134283265, 134283265, 206292713473, 134283265, 134283265, 134283265, 206292713473, 134283265, 65537,
  134283265, 134283265, 65537, 134283265, 134283265, 65537, 134283265, 65537, 134283265, 206292713473, 134283265,
  67239939, 134283265, 206292713473, 65537, 65537, 66561, 66561, 206292713473, 206292713473, 206292713473, 1093,
  65671, 1179713, 206158495875, 1275199553, 68988108931, 2113, 65666, 65, 66, 65537, 134283266, 2115, 65668, 65,
  131140, 65538, 134283265, 67239941, 67239937, 137640345601, 1, 1, 1, 1, 1, 1, 1, 1, 1, 1, 1, 1, 65537, 65,
  134283268, 67239937, 65537, 65539, 65537, 65537, 65537, 65, 65537, 201457731, 137640345601, 134283266, 67239937,
  131137, 67239941, 134217793, 67239937, 2228293, 134283268, 2228290, 131138, 134283268, 65537, 67, 65537, 67, 65, 65,
  65, 65537, 65537, 66, 65, 134283265, 65, 65537, 65, 65, 69, 1, 1, 1, 1, 1, 1, 1, 1, 1, 1, 1, 1, 1, 1, 65, 67239937,
  65537, 65, 65537, 134283266, 131140, 65, 65537, 134283266, 134283266, 134283268, 65539, 131138, 65537, 134283266,
  65541, 65537, 67585, 134217793, 134283265, 65537, 65537, 65537, 134283265, 65, 201457731, 67239937, 131138, 65,
  134283269, 206158561345, 69337089, 139653742593, 67239941, 275079364675, 131137, 67239939, 137506258945,
  206158561351, 66, 131137, 201457731, 131143, 131139, 131137, 201457735, 67239941, 206158561345, 134217793,
  134217793, 206158561347, 65537, 134283266, 65538, 134283267, 206292713475, 206292713475, 134283271, 134283266,
  131138, 67239943, 134283271, 134283271, 131140, 131140, 65538, 134217797, 206158561345, 206158561347, 206292648001,
  1, 65, 65541, 65541, 65538, 206292713475, 206292713474, 211243939987457, 136380417, 208440197121, 136380417,
  206294810625, 134284289, 206225670146, 134284289, 206293762049, 66561, 135331841, 207366455297, 135331841,
  135331841, 206293762049, 134284289, 134284289, 206293762049, 65537, 65539, 67585, 136380417, 136380417, 134283265,
  206292713473, 206292713473, 206292713473, 1, 65537, 134283268, 65542, 65537, 65541, 65537, 206292713473, 134283265,
  134283265, 281681269424129, 134283265, 134283265, 206292713473, 134283265, 206292713473, 134283265, 206292713473,
  134283265, 206292713473, 65537, 134283265, 206292713473, 134283265, 134283265, 206292713473, 134283265, 134283265,
  206292713473, 134283265, 65537, 134283265, 134283265, 134283265, 134283265, 206292713473, 206292713473,
  206292713473, 134283265, 134283265, 134283265, 65537, 134283265, 134283265, 134283265, 134283265, 206292713473,
  206292713473, 206292713473, 134283265, 134283265, 134283265, 65537, 134283265, 134283265, 134283265, 134283265,
  206292713473, 206292713473, 206292713473, 134283265, 134283265, 281681269424129, 136380417, 136380417, 134285313,
  206294810625, 206294810625, 136380417, 136380417, 134285313, 206294810625, 206294810625, 206292713473, 206292713473,
  206292713473, 206292713473, 206292713473, 206292713473, 134283267, 65539, 67585, 134283267, 65539, 67585, 134283267,
  65538, 134283267, 65538, 201457729, 131137, 65, 131137, 131137, 136315969, 208305979523, 275079364673, 131137,
  201457729, 131137, 131137, 131137, 201457729, 201457729, 201457729, 201457729, 65, 131137, 131137, 201457729,
  275079364673, 131137, 201457729, 131137, 131137, 131137, 201457729, 201457729, 201457729, 201457729, 65, 131137,
  131137, 201457729, 275079364673, 131137, 201457729, 131137, 131137, 131137, 201457729, 201457729, 201457729,
  201457729, 65, 131137, 131137, 201457729, 281681269424129, 134283265, 206292713473, 134283265, 134283265, 134283265,
  206292713473, 206292713473, 206292713473, 206292713473, 65537, 134283265, 134283265, 206292713473, 65539, 67239937,
  134283266, 65537, 65537, 134283268, 131140, 66, 134283271, 134283271, 65538, 66, 131137, 201457731, 131143, 131139,
  67239937, 137640345601, 67239941, 67239937, 137506258945, 1, 65537, 65537, 65537, 134283265, 65537, 134283265,
  65537, 134283265, 65537, 134283265, 134283265, 134283265, 206292713473, 65537, 65537, 65537, 67239938, 134283265,
  65537, 67239938, 134283265, 65537, 67239940, 134283265, 65537, 67239937, 134283265, 67239938, 134283265, 67239939,
  134283265, 68920934402, 137640345603, 206292713473, 65537, 134283265, 134283265, 65537, 65537, 134283265, 134283265,
  65537, 134283265, 134283265, 65537, 65537, 134283265, 206292713473, 134283265, 134283265, 134283265, 206292713473,
  134283265, 134283265, 206292713473, 1, 134283265, 134283265, 134283265, 134283265, 134283265, 134283265,
  206292713473, 134283265, 134283265, 206292713473, 134283265, 134283265, 134283265, 134283265, 134283265, 134283265,
  206292713473, 206292713473, 134283265, 65537, 134283265, 134283265, 65537, 134283265, 134283265, 65537, 134283265,
  134283265, 65537, 134283265, 65537, 134283265, 206292713473, 65537, 134283265, 206292713473, 134283265, 134283265,
  134283265, 206292713473, 134283265, 134283265, 134283265, 206292713473, 65537, 65537, 65537, 65537, 65537, 65537,
  206292713473, 206292713473, 206292713473, 206292713473, 65537, 134283265, 134283265, 206292713473, 206292713473,
  281681269424129, 65537, 134283265, 67239938, 134283265, 67239938, 134283265, 67239938, 134283265, 67239938,
  134283265, 67239938, 134283265, 67239940, 134283265, 68920934403, 137640345602, 206292713473, 67239938, 134283265,
  67239940, 134283265, 68920934403, 137640345602, 206292713473, 67239938, 134283265, 67239937, 134283265, 67239937,
  134283265, 67239938, 134283265, 67239937, 134283265, 67239937, 134283265, 68920934402, 137640345601, 206292713473,
  68920934402, 137640345601, 206292713473, 67239938, 134283265, 65537, 67239937, 134283265, 67239938, 134283265,
  65537, 67239937, 134283265, 67239938, 134283265, 65537, 67239937, 134283265, 67239938, 134283265, 65537, 67239937,
  134283265, 65537, 67239938, 134283265, 68920934402, 137640345603, 206292713473, 65537, 67239938, 134283265,
  68920934402, 137640345603, 206292713473, 67239937, 134283265, 67239939, 134283265, 67239937, 134283265, 68920934401,
  137640345602, 206292713473, 67239937, 134283265, 67239939, 134283265, 67239937, 134283265, 68920934401,
  137640345602, 206292713473, 65537, 65537, 65537, 65537, 65537, 65537, 68920934402, 137640345603, 206292713473,
  68920934402, 137640345603, 206292713473, 68920934402, 137640345603, 206292713473, 68920934402, 137640345603,
  206292713473, 65537, 67239938, 134283265, 67239937, 134283265, 68920934403, 137640345601, 206292713473, 68920934402,
  137640345601, 206292713473, 70643823542274, 141012567654401, 211381244723203, 281681269424129, 65537, 67239938,
  134283265, 65537, 206292713473, 134283265, 206292713473, 134283265, 134283265, 281681269424129, 134283265,
  134283265, 206292713473, 134283265, 206292713473, 134283265, 281681269424129, 134283265, 134283265, 206292713473,
  134283265, 206292713473, 134283265, 206292713473, 134283265, 206292713473, 65537, 134283265, 206292713473,
  134283265, 134283265, 206292713473, 134283265, 134283265, 206292713473, 134283265, 206292713473, 134283265,
  206292713473, 65537, 134283265, 206292713473, 134283265, 134283265, 206292713473, 134283265, 134283265,
  206292713473, 134283265, 65537, 134283265, 134283265, 134283265, 134283265, 206292713473, 206292713473,
  206292713473, 134283265, 134283265, 134283265, 65537, 134283265, 134283265, 134283265, 134283265, 206292713473,
  206292713473, 206292713473, 134283265, 134283265, 134283265, 65537, 134283265, 134283265, 134283265, 134283265,
  206292713473, 206292713473, 206292713473, 134283265, 134283265, 134283265, 65537, 134283265, 134283265, 134283265,
  134283265, 206292713473, 206292713473, 206292713473, 134283265, 134283265, 281681269424129, 281681269424129,
  134283265, 134283265, 134283265, 206292713473, 206292713473, 134283265, 134283265, 134283265, 206292713473,
  206292713473, 206292713473, 206292713473, 206292713473, 206292713473, 206292713473, 206292713473, 206292713473,
  206292713473, 134283265, 65537, 65537, 134283265, 65537, 65537, 134283265, 65537, 134283265, 65537, 206292713473,
  134283265, 65537, 134283265, 134283265, 134283265, 206292713473, 281681269424129, 134283265, 206292713473,
  134283265, 134283265, 134283265, 206292713473, 206292713473, 206292713473, 206292713473, 65537, 134283265,
  134283265, 206292713473, 281681269424129, 134283265, 206292713473, 134283265, 134283265, 134283265, 206292713473,
  206292713473, 206292713473, 206292713473, 65537, 134283265, 134283265, 206292713473, 281681269424129, 134283265,
  206292713473, 134283265, 134283265, 134283265, 206292713473, 206292713473, 206292713473, 206292713473, 65537,
  134283265, 134283265, 206292713473, 281681269424129, 134283265, 206292713473, 134283265, 134283265, 134283265,
  206292713473, 206292713473, 206292713473, 206292713473, 65537, 134283265, 134283265, 206292713473, 1, 65, 131137,
  131137, 131137, 201457729, 131137, 201457729, 131137, 201457729, 131137, 201457729, 201457729, 201457729,
  275079364673, 1, 65, 131137, 131137, 131137, 201457729, 131137, 201457729, 131137, 201457729, 131137, 201457729,
  201457729, 201457729, 275079364673, 1, 65, 131137, 131137, 131137, 201457729, 131137, 201457729, 131137, 201457729,
  131137, 201457729, 201457729, 201457729, 275079364673, 1, 65, 131137, 131137, 131137, 201457729, 131137, 201457729,
  131137, 201457729, 131137, 201457729, 201457729, 201457729, 275079364673]

def dev_ip_CC2 : List ITerm := [
  ⟨1, 2, [(chars! "v.oovv", [0, 1, 3, 4]), (chars! "t1", [2, 3]), (chars! "r2", [0, 1, 4]), (chars! "q1", [2])]⟩,
  ⟨1, 1, [(chars! "v.oovv", [0, 1, 3, 4]), (chars! "t1", [0, 3]), (chars! "r2", [1, 2, 4]), (chars! "q1", [2])]⟩,
  ⟨-1, 4, [(chars! "v.oovv", [0, 1, 3, 4]), (chars! "t1", [0, 5]), (chars! "t2", [2, 8, 3, 4]), (chars! "r1", [1]), (chars! "q2", [2, 8, 5])]⟩,
  ⟨-1, 2, [(chars! "v.oovv", [0, 1, 3, 4]), (chars! "t1", [0, 5]), (chars! "t1", [2, 3]), (chars! "t1", [8, 4]), (chars! "r1", [1]), (chars! "q2", [2, 8, 5])]⟩,
  ⟨-1, 2, [(chars! "v.oooo", [0, 1, 2, 8]), (chars! "t1", [0, 3]), (chars! "r1", [1]), (chars! "q2", [2, 8, 3])]⟩,
  ⟨-1, 1, [(chars! "v.ovov", [0, 3, 1, 4]), (chars! "t1", [2, 3]), (chars! "r1", [1]), (chars! "q2", [0, 2, 4])]⟩,
  ⟨-1, 2, [(chars! "v.oovv", [0, 1, 3, 4]), (chars! "t1", [0, 3]), (chars! "t2", [2, 8, 4, 5]), (chars! "r1", [1]), (chars! "q2", [2, 8, 5])]⟩,
  ⟨1, 1, [(chars! "v.oovv", [0, 1, 3, 4]), (chars! "t1", [2, 3]), (chars! "t2", [0, 8, 4, 5]), (chars! "r1", [1]), (chars! "q2", [2, 8, 5])]⟩,
  ⟨-1, 1, [(chars! "v.ooov", [0, 1, 2, 3]), (chars! "t1", [0, 4]), (chars! "t1", [8, 3]), (chars! "r1", [1]), (chars! "q2", [2, 8, 4])]⟩,
  ⟨-1, 2, [(chars! "v.ovvv", [0, 3, 4, 5]), (chars! "t1", [1, 4]), (chars! "t1", [2, 5]), (chars! "r1", [0]), (chars! "q2", [1, 2, 3])]⟩,
  ⟨-1, 2, [(chars! "v.oovv", [0, 1, 3, 4]), (chars! "t1", [2, 3]), (chars! "t2", [0, 1, 4, 5]), (chars! "r1", [8]), (chars! "q2", [2, 8, 5])]⟩,
  ⟨-1, 2, [(chars! "v.oovv", [0, 1, 3, 4]), (chars! "t1", [0, 5]), (chars! "t2", [1, 2, 3, 4]), (chars! "r1", [8]), (chars! "q2", [2, 8, 5])]⟩,
  ⟨-1, 1, [(chars! "v.ooov", [0, 1, 2, 3]), (chars! "t1", [0, 3]), (chars! "t1", [1, 4]), (chars! "r1", [8]), (chars! "q2", [2, 8, 4])]⟩,
  ⟨-1, 1, [(chars! "v.ovvv", [0, 3, 4, 5]), (chars! "t1", [0, 4]), (chars! "t1", [1, 5]), (chars! "r1", [2]), (chars! "q2", [1, 2, 3])]⟩,
  ⟨1, 1, [(chars! "v.oovv", [0, 1, 3, 4]), (chars! "t1", [0, 3]), (chars! "t1", [1, 5]), (chars! "t1", [2, 4]), (chars! "r1", [8]), (chars! "q2", [2, 8, 5])]⟩,
  ⟨1, 1, [(chars! "v.ovov", [0, 3, 1, 4]), (chars! "t1", [0, 4]), (chars! "r1", [2]), (chars! "q2", [1, 2, 3])]⟩,
  ⟨-1, 1, [(chars! "v.oovv", [0, 1, 3, 4]), (chars! "t1", [0, 3]), (chars! "t2", [1, 2, 4, 5]), (chars! "r1", [8]), (chars! "q2", [2, 8, 5])]⟩]

def ip_CC2 : List Nat := [
  1, 1, 1, 1, 1, 1, 1, 1, 1, 65, 65, 65537, 65541, 65537, 65537, 67, 65537, 65537, 131137, 65, 65, 65537, 65,
  67239937, 65537, 65537, 65537, 1, 1, 1, 1, 1, 1, 1, 1, 1, 1, 1, 66, 131137, 134283271, 134283267, 65538, 134283268,
  69, 65537, 134283265, 65537, 66, 65537, 1, 65537, 134283265, 1, 134217797, 134283265, 65537, 134283265, 134283265,
  134283265, 65537, 1179713, 1089, 131143, 66, 131138, 134285315, 65544, 134285313, 206292713473, 134283265,
  134283265, 134283265, 65537, 134283265, 134283265, 206292713473, 134283265, 134283265, 134283265, 65537, 134283265,
  134283265, 131138, 65, 65, 131140, 66, 131137, 131143, 131139, 201457731, 1, 1, 1, 1, 1, 1, 1, 1, 1, 1, 1, 65537,
  65, 67239937, 67239937, 65537, 65539, 65537, 65537, 65537, 65, 65, 65537, 69, 206292713473, 137640345601, 67239937,
  67239937, 134283265, 134217797, 67239937, 67239937, 134283266, 136380418, 131138, 134283268, 65537, 65539, 65537,
  65537, 65537, 66, 65537, 131137, 65, 65, 65537, 65, 1, 1, 1, 1, 1, 1, 1, 1, 1, 1, 1, 134286337, 133185, 65538,
  65537, 65, 65, 66, 131137, 65538, 65537, 65541, 134283265, 206292713473, 65537, 65537, 65537, 134283265, 134283265,
  134283265, 1, 134283265, 65538, 65537, 134283265, 134283265, 65537, 65537, 134283265, 1179713, 1093, 132161, 66,
  131137, 1182785, 201457729, 206292910145, 132161, 131141, 1179713, 131137, 202506305, 204603457, 1208156225,
  201457729, 69, 132165, 133187, 202506305, 131138, 203554881, 134414406, 134414404, 137640542276, 134414401, 131142,
  65, 204603457, 131138, 134209, 66, 131137, 133185, 134414402, 131141, 1, 201457729, 131141, 132161, 202506305,
  131138, 201457729, 201457733, 201459777, 275012321346, 1, 201458753, 1275202629, 132162, 202506305, 201460805,
  1180738, 1276248129, 202508353, 202509377, 1180742, 1276250177, 1276251201, 132166, 201457729, 131141, 201458753,
  131138, 201457729, 201457731, 131138, 201458753, 1374523949121, 1275200581, 1275201603, 1275199554, 1179713,
  1275202625, 1275199554, 275012321345, 201458757, 201459779, 201457730, 131137, 201460801, 201457730, 1,
  206158561347, 281475178168387, 360288245269004355, 206158561345, 206158561347, 206158561349, 206158561345,
  281475178168387, 281475178168387, 281475178168387, 281475178168385, 134217797, 207232303169, 207232303169,
  282574689796161, 207232303169, 282574689796161, 282574689796161, 282574689796161, 361414145175846977,
  282574689796161, 207232303169, 135266369, 282574689796161, 207232303169, 207232303169, 134217793, 206158561345,
  206158561347, 281475178168387, 206158561347, 1, 206158561346, 134217794, 134217793, 207232303171, 207232303172,
  135267394, 134218817, 207233351747, 207233351748, 135266370, 135266369, 207232303169, 135267393, 207233351745,
  206158561345, 134217793, 206158561351, 134217793, 206158561346, 1, 1, 1, 1, 206292713473, 1, 1, 1, 1, 206292713473,
  1, 1, 1, 1, 1, 281681269424129, 1, 1, 1, 1, 1, 1, 360569651459063809, 1, 1, 1, 1, 206292713473, 1, 1, 1, 1,
  206292713473, 1, 1, 1, 1, 1, 281681269424129, 1, 1, 1, 1, 1, 281681269424129, 1, 1, 1, 1, 1, 281681269424129, 1, 1,
  1, 1, 1, 281681269424129, 1, 1, 1, 1, 1, 281681269424129, 1, 1, 1, 1, 1, 281681269424129, 1, 1, 1, 1, 1,
  281681269424129, 1, 1, 1, 1, 1, 281681269424129, 1, 1, 1, 1, 1, 1, 360569651459063809, 1, 1, 1, 1, 206292713473, 1,
  1, 1, 1, 1, 281681269424129]

def dev_ea_CC2 : List ITerm := [
  ⟨1, 1, [(chars! "v.oovv", [0, 1, 3, 4]), (chars! "t1", [0, 3]), (chars! "r2", [4, 5, 1]), (chars! "q1", [5])]⟩,
  ⟨1, 2, [(chars! "v.oovv", [0, 1, 3, 4]), (chars! "t1", [0, 5]), (chars! "r2", [3, 4, 1]), (chars! "q1", [5])]⟩,
  ⟨-1, 2, [(chars! "v.vvvv", [3, 4, 5, 11]), (chars! "t1", [0, 3]), (chars! "r1", [4]), (chars! "q2", [5, 11, 0])]⟩,
  ⟨-1, 4, [(chars! "v.oovv", [0, 1, 3, 4]), (chars! "t1", [2, 3]), (chars! "t2", [0, 1, 5, 11]), (chars! "r1", [4]), (chars! "q2", [5, 11, 2])]⟩,
  ⟨1, 1, [(chars! "v.oovv", [0, 1, 3, 4]), (chars! "t1", [0, 5]), (chars! "t2", [1, 2, 3, 11]), (chars! "r1", [4]), (chars! "q2", [5, 11, 2])]⟩,
  ⟨-1, 1, [(chars! "v.ovvv", [0, 3, 4, 5]), (chars! "t1", [0, 11]), (chars! "t1", [1, 4]), (chars! "r1", [5]), (chars! "q2", [3, 11, 1])]⟩,
  ⟨-1, 1, [(chars! "v.ovov", [0, 3, 1, 4]), (chars! "t1", [0, 5]), (chars! "r1", [4]), (chars! "q2", [3, 5, 1])]⟩,
  ⟨-1, 2, [(chars! "v.oovv", [0, 1, 3, 4]), (chars! "t1", [0, 5]), (chars! "t1", [1, 11]), (chars! "t1", [2, 3]), (chars! "r1", [4]), (chars! "q2", [5, 11, 2])]⟩,
  ⟨-1, 2, [(chars! "v.ooov", [0, 1, 2, 3]), (chars! "t1", [0, 4]), (chars! "t1", [1, 5]), (chars! "r1", [3]), (chars! "q2", [4, 5, 2])]⟩,
  ⟨-1, 2, [(chars! "v.oovv", [0, 1, 3, 4]), (chars! "t1", [2, 3]), (chars! "t2", [0, 1, 4, 5]), (chars! "r1", [11]), (chars! "q2", [5, 11, 2])]⟩,
  ⟨-1, 2, [(chars! "v.oovv", [0, 1, 3, 4]), (chars! "t1", [0, 5]), (chars! "t2", [1, 2, 3, 4]), (chars! "r1", [11]), (chars! "q2", [5, 11, 2])]⟩,
  ⟨-1, 1, [(chars! "v.ooov", [0, 1, 2, 3]), (chars! "t1", [0, 3]), (chars! "t1", [1, 4]), (chars! "r1", [5]), (chars! "q2", [4, 5, 2])]⟩,
  ⟨-1, 1, [(chars! "v.ovvv", [0, 3, 4, 5]), (chars! "t1", [0, 4]), (chars! "t1", [1, 5]), (chars! "r1", [11]), (chars! "q2", [3, 11, 1])]⟩,
  ⟨1, 1, [(chars! "v.oovv", [0, 1, 3, 4]), (chars! "t1", [0, 3]), (chars! "t1", [1, 5]), (chars! "t1", [2, 4]), (chars! "r1", [11]), (chars! "q2", [5, 11, 2])]⟩,
  ⟨1, 1, [(chars! "v.ovov", [0, 3, 1, 4]), (chars! "t1", [0, 4]), (chars! "r1", [5]), (chars! "q2", [3, 5, 1])]⟩,
  ⟨-1, 1, [(chars! "v.oovv", [0, 1, 3, 4]), (chars! "t1", [0, 3]), (chars! "t2", [1, 2, 4, 5]), (chars! "r1", [11]), (chars! "q2", [5, 11, 2])]⟩,
  ⟨-1, 2, [(chars! "v.oovv", [0, 1, 3, 4]), (chars! "t1", [0, 3]), (chars! "t2", [1, 2, 5, 11]), (chars! "r1", [4]), (chars! "q2", [5, 11, 2])]⟩]

def ea_CC2 : List Nat := [
  1, 1, 1, 1, 1, 1, 1, 1, 65, 65537, 65537, 67, 67, 65537, 65537, 134283265, 65, 65537, 65, 65541, 65, 65539, 1, 1, 1,
  1, 1, 1, 1, 1, 1, 1, 1, 65, 65537, 131140, 134217793, 65538, 65538, 134283271, 65, 1, 65, 65537, 134283265, 65,
  131138, 65537, 65537, 134283266, 65541, 65537, 65537, 134219841, 134283265, 65541, 134283265, 65537, 134283265,
  134283265, 65541, 134283265, 65537, 134283265, 134283265, 134283265, 132161, 70, 66, 131139, 131137, 67239937,
  67239937, 206292713473, 134283265, 134283265, 134283265, 65538, 134283265, 134283265, 201457729, 131137, 131137,
  131137, 66, 131137, 131137, 65539, 65, 131140, 131143, 131143, 66, 67239937, 67239937, 137506258945, 1, 1, 1, 1, 1,
  1, 1, 1, 1, 1, 1, 65, 67239937, 65539, 65537, 65537, 65537, 65, 206158561345, 65537, 67239937, 134217797, 65537,
  134217793, 136380421, 136380418, 134283268, 65539, 65539, 65537, 65537, 69, 65, 66, 131137, 65, 65537, 65, 1, 1, 1,
  1, 1, 1, 1, 1, 1, 1, 1, 1, 66, 65537, 134286337, 134284289, 65538, 134283265, 65538, 65, 65537, 65537, 65, 65, 65,
  68288513, 1, 1, 1, 65537, 65541, 134285317, 67108997, 65538, 134283269, 65541, 134283265, 65537, 134283265, 65538,
  134283269, 65541, 134283265, 65537, 134283265, 66, 133185, 131137, 131141, 1182791, 201457729, 131139, 67,
  69997691013, 68920803461, 67108995, 142111877955781, 138512761027, 134284293, 134285315, 206293762049, 134283266,
  206294810625, 206225670150, 206225670148, 281543830601732, 206225670145, 134283270, 65537, 206295859201, 134283266,
  134286337, 132161, 131143, 66, 134283266, 206292713479, 134283266, 206292713479, 1, 131139, 132161, 202506305,
  201457731, 201458753, 131138, 201457729, 201457729, 275012321347, 1, 131141, 201457729, 202509377, 1180743,
  1276248129, 132162, 202507329, 1276251201, 132167, 202506305, 1180738, 1276249153, 1275202627, 201460803, 201457733,
  131141, 131138, 201459777, 201457729, 201459777, 201459777, 1374523949121, 1275200581, 1275201603, 1275199554,
  1179714, 1275202625, 1275199554, 275012321345, 201458757, 201459779, 201457730, 131138, 201460801, 201457730, 1,
  206158561347, 206158561351, 281475178168391, 206158561351, 134217795, 281475178168391, 281475178168391,
  206158561351, 360288245269004359, 281475178168391, 207232303169, 207232303169, 282574689796161, 207232303169,
  282574689796161, 282574689796161, 282574689796161, 361414145175846977, 282574689796161, 207232303169, 135266369,
  282574689796161, 207232303169, 207232303169, 206158561351, 206158561351, 134217793, 206158561346, 281475178168391,
  206158561346, 281475178168391, 1, 134217793, 134217797, 206158561349, 206158561350, 134217794, 207232303176,
  135267395, 207232303175, 135266369, 207232303170, 134218818, 207233351752, 135266371, 207233351751, 135267393,
  207233351746, 134217793, 206158561347, 206158561345, 1, 1, 1, 1, 206292713473, 1, 1, 1, 1, 206292713473, 1, 1, 1, 1,
  206292713473, 1, 1, 1, 1, 1, 281681269424129, 1, 1, 1, 1, 1, 281681269424129, 1, 1, 1, 1, 1, 281681269424129, 1, 1,
  1, 1, 206292713473, 1, 1, 1, 1, 1, 1, 360569651459063809, 1, 1, 1, 1, 1, 281681269424129, 1, 1, 1, 1, 1,
  281681269424129, 1, 1, 1, 1, 1, 281681269424129, 1, 1, 1, 1, 1, 281681269424129, 1, 1, 1, 1, 1, 281681269424129, 1,
  1, 1, 1, 1, 1, 360569651459063809, 1, 1, 1, 1, 206292713473, 1, 1, 1, 1, 1, 281681269424129, 1, 1, 1, 1, 1,
  281681269424129]

def dev_ee_MP2 : List ITerm := [
  ⟨-1, 1, [(chars! "v.oovv", [0, 1, 3, 4]), (chars! "t2", [0, 2, 3, 5]), (chars! "r1", [1, 4]), (chars! "q1", [2, 5])]⟩,
  ⟨1, 2, [(chars! "v.oovv", [0, 1, 3, 4]), (chars! "t2", [0, 1, 3, 5]), (chars! "r1", [2, 4]), (chars! "q1", [2, 5])]⟩,
  ⟨1, 2, [(chars! "v.oovv", [0, 1, 3, 4]), (chars! "t2", [0, 2, 3, 4]), (chars! "r1", [1, 5]), (chars! "q1", [2, 5])]⟩,
  ⟨1, 1, [(chars! "v.oovv", [0, 1, 3, 4]), (chars! "t2", [0, 2, 3, 5]), (chars! "r1", [2, 5]), (chars! "q1", [1, 4])]⟩,
  ⟨-1, 2, [(chars! "v.oovv", [0, 1, 3, 4]), (chars! "t2", [0, 1, 3, 5]), (chars! "r1", [2, 5]), (chars! "q1", [2, 4])]⟩,
  ⟨-1, 2, [(chars! "v.oovv", [0, 1, 3, 4]), (chars! "t2", [0, 2, 3, 4]), (chars! "r1", [2, 5]), (chars! "q1", [1, 5])]⟩]

def ee_MP2 : List Nat := [
  1, 1, 65541, 65, 1, 1, 1, 1, 1, 1, 1, 1, 1, 1, 65537, 65, 65537, 66, 66561, 65538, 65539, 67585, 65537, 65537,
  65537, 65537, 65537, 65537, 65537, 67, 65, 67239937, 65538, 66, 131143, 66, 131139, 1, 1, 65541, 65, 1, 1, 1, 1, 1,
  1, 1, 1, 1, 1, 65537, 65, 65537, 66, 66561, 65538, 65539, 67585, 65537, 65537, 65537, 65537, 65537, 65537, 65537,
  67, 65, 67239937, 65538, 66, 131143, 66, 131139, 1, 133187, 132165, 201460801, 131142, 131138, 201458753, 131138,
  201459777, 1, 1179714, 132162, 131138, 1180738, 133186, 2228289, 2230338, 131137, 1, 136314947, 135266373,
  206158564417, 134217794, 134217793, 206158562369, 134217793, 206158563393, 1, 134218818, 135266369, 134217794,
  135267393, 136314945, 134219841, 136316993, 134217793, 1, 1, 1, 1, 206292713473, 1, 1, 1, 1, 206292713473, 1, 1, 1,
  1, 206292713473, 1, 1, 1, 1, 206292713473, 1, 1, 1, 1, 206292713473, 1, 1, 1, 1, 206292713473]

end Ebcc.Hints
