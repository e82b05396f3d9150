import Verif.Tensor.Identity
/-!
Hints for claims of `tools/claims.py`.
-/

set_option maxRecDepth 100000

namespace Ebcc.Hints

def grad_CCD : List Nat := [
  1, 1, 65537, 1, 1, 1, 1, 1, 1, 1, 69, 65, 65537, 134217797, 65538, 134283268, 67239937, 65, 65537, 65537, 65, 66561,
  66561, 134283265, 134283265, 134284289, 68288515, 67585, 67585, 65537, 65537, 65537, 69, 131137, 1, 1, 1, 1, 1, 1,
  1, 1, 65, 69, 65, 65537, 65537, 134283265, 134284289, 1, 133185, 67108993, 71, 134209, 65, 65, 65537, 65537,
  135331841, 134283266, 65537, 5, 134285317, 66561, 66561, 65541, 134283269, 65541, 134283269, 65541, 134283269,
  65541, 134283269, 135331841, 134283270, 135331841, 134283270, 136380417, 134283271, 136380417, 134283271, 67585,
  67585, 65541, 134283265, 65537, 1, 131141, 65, 133186, 2230338, 204606529, 1278348353, 1209205826, 135464002,
  2283997251, 203556929, 132162, 1180738, 3279942, 2231366, 1182790, 134214, 131141, 134414401, 65537, 67239941,
  67239938, 68924080132, 137640345601, 68921982978, 137640345601, 68923031555, 137640345601, 67239938, 67239941,
  67239941, 68920934401, 137640345601, 1, 134283269, 65541, 206292713477, 134285314, 136382466, 137432067,
  209517084680, 136383491, 208443342856, 135334915, 207369601032, 134286339, 206295859208, 208442294275, 208442294278,
  206294810627, 206294810630, 207367503879, 207367503879, 206293762055, 206293762055, 134284290, 135332866, 134283269,
  206292713473]

def grad_CCSD : List Nat := [
  1, 1, 1, 1, 65, 65537, 65, 67108993, 1, 1, 1, 1, 1, 1, 1, 1, 1, 1, 1, 1, 65, 65, 65537, 67239937, 65537, 65537, 65,
  65537, 65, 65537, 65, 65, 65539, 65537, 134283266, 67585, 67585, 69, 65537, 201457731, 134283271, 65537, 131141,
  68719673477, 131137, 134217793, 131140, 3138, 65666, 67239941, 134283266, 67239937, 137506258945, 67239937,
  67239939, 67239941, 134283266, 65537, 65538, 65538, 135331841, 207366455297, 135331841, 134284289, 135331841,
  137640345602, 137640345601, 131140, 136380417, 136380417, 65, 206225670148, 65539, 67585, 65, 2113, 65666, 2113,
  65666, 1, 65539, 134283265, 134283265, 134283265, 134283265, 134283265, 206292713473, 134283265, 134283265,
  134283265, 206292713473, 134283265, 65537, 134283265, 134283265, 65537, 134283265, 134283265, 65537, 134283265,
  65537, 134283265, 206292713473, 134283265, 67239939, 134283265, 206292713473, 65537, 65537, 66561, 66561,
  206292713473, 206292713473, 206292713473, 1093, 65671, 1179713, 206158495875, 1275199553, 68988108931, 2113, 65666,
  65, 66, 65537, 134283266, 2115, 65668, 65, 131140, 65538, 134283265, 67239941, 67239937, 137640345601, 1, 1, 1, 1,
  1, 1, 1, 1, 1, 1, 1, 1, 1, 1, 65537, 65541, 65539, 65537, 65537, 65, 65537, 65, 65, 65539, 65, 65537, 1, 65539, 1,
  65537, 65537, 65537, 65, 137363521, 65, 131138, 65537, 65537, 206292713479, 134283265, 134283271, 134284289,
  67108994, 71, 131137, 71, 131137, 67108994, 131137, 131137, 133185, 134283265, 134283265, 208373153793, 134209,
  67239937, 65, 65, 67587, 135266369, 1, 65537, 67587, 65539, 67239940, 67585, 136380417, 136380417, 65539, 134283267,
  67587, 65543, 134283267, 134283265, 65537, 134283265, 135331841, 134283266, 134283266, 135331841, 135331841, 67587,
  135266369, 206225670146, 66561, 65538, 65541, 65537, 67239937, 65537, 68288513, 136382465, 209379721345, 65537, 1,
  65537, 70, 131140, 65537, 134283266, 65541, 134283266, 68, 136314947, 131139, 134414404, 65537, 65, 137363521,
  67239937, 67108993, 65537, 134283269, 5, 65, 134283269, 134283269, 65541, 134283269, 134283269, 134283269, 65541,
  134283269, 134283269, 134283269, 65541, 134283269, 134283269, 134283269, 65541, 134283269, 134283265, 134283269,
  134283265, 134283265, 65541, 134283269, 134283265, 134283269, 134283265, 134283265, 65541, 134283269, 135331841,
  134283270, 134283270, 135331841, 135331841, 135331841, 134283270, 134283270, 135331841, 135331841, 65537, 65541,
  65537, 65541, 66, 65538, 65538, 65538, 134283269, 206292713477, 134283269, 206292713477, 134283269, 206292713477,
  134283269, 206292713477, 206292713473, 206292713473, 65537, 206292713473, 65537, 206292713473, 65541, 134283265,
  134283269, 206292713473, 69206149, 139653546181, 2, 70, 134285315, 206292713478, 67108998, 134283269, 68920803461,
  65537, 134283265, 136383489, 208443342849, 134284289, 206293762049, 134283265, 206292713473, 134283265,
  206292713473, 206225670145, 281612482969601, 67, 131137, 67108997, 137506062535, 137506062533, 211243738595589,
  67108997, 67108997, 65541, 134283269, 206292713477, 206292713477, 206292713477, 67108998, 67108998, 66, 131143,
  65538, 134283269, 134285313, 134283265, 206225670146, 134283266, 206292713479, 134283266, 206292713479, 65537,
  65537, 134283265, 1, 65, 131138, 131142, 132165, 202506305, 133187, 134414404, 134209, 204603457, 131138, 134414401,
  134414406, 203554881, 137640542276, 1, 65, 1278345283, 204603459, 3425828931, 2352087107, 1276248131, 204606529,
  276086063171, 202506307, 1278348353, 1375597690947, 1209205826, 202506305, 1275199555, 135464002, 1276248129,
  201457731, 1305804537923, 206292910147, 2352087109, 3279942, 3355639878, 3425828933, 2231366, 2281898054, 204603461,
  1182790, 1208156230, 1278345285, 134214, 134414406, 2228289, 2351038533, 277159804994, 131137, 203554885,
  2476183060546, 203554881, 2283997251, 2348941381, 2336730841157, 2351038529, 203556929, 201457733, 137707585605,
  1179714, 132162, 131138, 1180738, 133186, 2230338, 278233546817, 1377745174593, 2477256802369, 3576768430145,
  131141, 201457733, 134414401, 275079364673, 275079364673, 211244007292993, 131141, 201457733, 65537, 65537,
  67239940, 134283265, 67239938, 67239941, 67239937, 68920934402, 137640345601, 67239937, 68920934402, 137640345601,
  67239937, 68920934404, 137640345601, 67239938, 68920934401, 137640345601, 68920934403, 137640345601, 68920934403,
  137640345601, 70643823542276, 141012567654401, 211381244723201, 68923031554, 137640345601, 68920934402,
  137640345601, 68924080132, 137640345601, 70643823542276, 141013641396225, 211381244723201, 68921982978,
  137640345601, 68921982977, 137640345601, 68920934401, 137640345601, 70643823542273, 141014715138050,
  211381244723201, 68921982979, 137640345601, 67239941, 68920934405, 137640345601, 67239937, 68920934403,
  137640345601, 70643823542276, 141014715138049, 211381244723201, 68923031553, 137640345601, 68923031555,
  137640345601, 68920934401, 137640345601, 70644897284099, 141012567654401, 211381244723201, 67239937, 67239938,
  67239938, 70644897284099, 141014715138050, 211381244723201, 67239941, 68921982979, 137640345601, 68920934401,
  137640345601, 70644897284099, 141012567654401, 211381244723201, 70645971025922, 141012567654401, 211381244723201,
  72410812349808643, 144467306876043265, 216527099870117890, 288582426165313537, 67239941, 68923031555, 137640345601,
  1, 65538, 134283267, 206294810631, 281683416907783, 206294810631, 206294810631, 281683416907783, 134284293,
  206293762049, 206293762051, 281682343165955, 206293762049, 281682343165955, 206293762053, 281682343165953,
  206293762051, 281682343165955, 281682343165955, 360570750970691587, 134285315, 206294810627, 206292713479,
  281683416907783, 281683416907783, 360571850482319367, 206292713479, 206292713479, 134283272, 206292713480,
  281681269424136, 281681269424136, 281681269424136, 206292713480, 206292713480, 134283266, 206292713479, 134283266,
  206292713475, 206292713475, 206292713473, 281681269424131, 206292713474, 281681269424135, 206294810626,
  281683416907783, 1, 206292713477, 65541, 134283269, 209513938952, 209517084680, 137432067, 209517084679,
  208440197128, 208443342856, 136383491, 208443342855, 207366455304, 207369601032, 135334915, 207369601031,
  206292713480, 206295859208, 134286339, 206295859207, 206293762050, 207367503879, 207367503879, 207367503879,
  135331847, 207366455303, 207367503874, 206293762055, 206293762055, 206293762055, 134283271, 206292713479,
  206294810625, 208440197126, 208442294278, 208442294275, 208442294275, 208442294273, 206292713478, 206294810630,
  206294810627, 206294810627, 134285314, 136380421, 136382466, 134283269, 134283266, 135331842, 136380418, 137428994,
  209517084680, 284983025532936, 208443342856, 283883513905160, 207369601032, 282784002277384, 206295859208,
  281684490649608, 283882440163331, 281683416907779, 134284290, 282781854793735, 135332866, 281682343165959,
  134283269, 206292713473, 206292713473, 281681269424129, 206292713477, 281681269424133]

def grad_CCSDT : List Nat := [
  1, 1, 1, 1, 65537, 1, 65537, 65537, 134283265, 1, 1, 1, 1, 1, 1, 1, 1, 1, 1, 1, 1, 65537, 65537, 1, 66, 1, 65, 5,
  65539, 2113, 2228290, 1, 65537, 67587, 67239940, 65, 1, 65537, 65537, 134283268, 65537, 134283268, 65537, 65, 67585,
  67239938, 1, 65537, 65537, 65537, 134283265, 66, 131137, 134217797, 134217793, 206158561345, 65, 65541, 140574722,
  65, 134217793, 1, 65537, 134283265, 65537, 134283265, 206292713475, 65, 134283269, 206292713477, 65, 65537, 65537,
  134283271, 67239937, 65538, 67585, 136380417, 66561, 135331841, 207366455297, 135331841, 137640345602, 135331841,
  134284289, 65537, 65537, 134283265, 65537, 134283265, 206292713473, 134283265, 206292713473, 134283265, 134283265,
  65537, 65537, 134283265, 65537, 134283265, 206292713473, 134283265, 206292713473, 134283265, 67239939, 66, 65537,
  65539, 67585, 65537, 65537, 65537, 65537, 65539, 65, 134217793, 67, 69, 65537, 65537, 134283266, 67239941, 65537,
  65537, 134283265, 65537, 134283266, 77825, 67585, 67239938, 67585, 136380417, 134217793, 134217795, 201457731,
  134217793, 206292648001, 65537, 134283265, 136380417, 134285313, 146866177, 136380417, 206225670146, 136380417,
  208440197121, 65537, 134283265, 134283265, 134283265, 134283265, 134283265, 206292713473, 134283265, 206292713473,
  65537, 134283265, 134283265, 134283265, 134283265, 134283265, 206292713473, 134283265, 206292713473, 66, 65, 131140,
  65, 65, 131140, 65537, 65537, 134283265, 131143, 134217797, 206158561345, 65537, 134283265, 134283265, 134283265,
  206292713473, 65537, 134283265, 134283265, 134283265, 206292713473, 65537, 134283265, 134283265, 134283265,
  206292713473, 65537, 134283265, 134283265, 134283265, 206292713473, 65537, 134283265, 134283265, 134283265,
  206292713473, 1, 65537, 67585, 67239938, 1, 67585, 67239938, 1093, 65671, 1179713, 206158495875, 1275199553,
  68988108931, 134283269, 137428993, 137428993, 137428993, 137428993, 137428993, 137428993, 65538, 65541, 134283269,
  135266369, 134414402, 65537, 1, 134283266, 65537, 134414404, 136314947, 67585, 135333889, 208373153794,
  207299411970, 68290561, 65537, 134283265, 206292713473, 206292713473, 134283265, 65537, 134283265, 206292713473,
  206292713473, 134283265, 65537, 134283265, 206292713473, 206292713473, 134283265, 65537, 134283265, 206292713473,
  206292713473, 134283265, 65537, 134283265, 206292713473, 206292713473, 134283265, 65537, 134283265, 206292713473,
  206292713473, 134283265, 77825, 134285313, 208440197121, 206225670146, 69337089, 77825, 134285313, 208440197121,
  206225670146, 69337089, 77825, 134285313, 208440197121, 206225670146, 69337089, 65541, 65538, 134283271, 1, 67585,
  66561, 135331841, 65, 134217797, 134217794, 206158561351, 65537, 134283266, 65537, 134414402, 136314945, 67585,
  207299411970, 68290561, 134217797, 281475178168385, 206292648001, 67586, 136382465, 135333889, 207368552449,
  136380417, 282780781051905, 207366455297, 65537, 134283265, 134283265, 206292713473, 134283265, 281681269424129,
  206292713473, 65537, 134283265, 134283265, 206292713473, 134283265, 281681269424129, 206292713473, 65537, 134283265,
  134283265, 206292713473, 134283265, 281681269424129, 206292713473, 65537, 134283265, 134283265, 206292713473,
  134283265, 281681269424129, 206292713473, 65537, 134283265, 134283265, 206292713473, 134283265, 281681269424129,
  206292713473, 65537, 134283265, 134283265, 206292713473, 134283265, 281681269424129, 206292713473, 67585, 134285313,
  69337089, 139787829249, 146866177, 281681202380802, 139787829249, 67585, 134285313, 69337089, 139787829249,
  146866177, 281681202380802, 139787829249, 67585, 134285313, 69337089, 139787829249, 146866177, 281681202380802,
  139787829249, 134283271, 212668121090, 140576769, 137428993, 209446895618, 137431041, 138477569, 210587680769,
  138477569, 138477569, 210587680769, 138477569, 151060481, 210520637442, 138479617, 134217797, 65541, 134283265,
  131138, 206158561345, 134284289, 135331841, 206293762049, 134283265, 134283265, 206292713473, 134283265, 134283265,
  206292713473, 134283265, 134283265, 206292713473, 134283265, 134283265, 137640345603, 134283265, 134283265,
  137640345603, 134283265, 134283265, 137640345603, 67239938, 134283265, 206292713473, 67239938, 134283265,
  206292713473, 67239938, 134283265, 206292713473, 134283265, 134283265, 137640345603, 134283265, 134283265,
  137640345603, 134283265, 134283265, 137640345603, 67239938, 134283265, 206292713473, 67239938, 134283265,
  206292713473, 67239938, 134283265, 206292713473, 67239938, 134283265, 137640345603, 67239938, 134283265,
  137640345603, 67239938, 134283265, 137640345603, 131139, 201457735, 207366455297, 207366455297, 207366455297,
  207366455297, 207366455297, 207366455297, 207366455297, 207366455297, 207366455297, 207366455297, 207366455297,
  207366455297, 207366455297, 207366455297, 207366455297, 207366455297, 207366455297, 207366455297, 65537, 134217795,
  134283265, 134283265, 134283265, 134283265, 134283265, 134283265, 134283268, 134283269, 206292713477, 207232303175,
  206426996808, 1, 65537, 66, 134217793, 148963329, 207368552449, 283811640311811, 66561, 134284289, 134283265,
  206292713473, 281681269424129, 65537, 134283265, 134283265, 206292713473, 281681269424129, 65537, 134283265,
  134283265, 206292713473, 281681269424129, 65537, 134283265, 146866177, 206294810625, 283880292679681, 65539,
  146866177, 146866177, 206294810625, 283880292679681, 65539, 146866177, 146866177, 206294810625, 283880292679681,
  65539, 146866177, 146866177, 206294810625, 283880292679681, 65539, 146866177, 146866177, 206294810625,
  283880292679681, 65539, 146866177, 146866177, 206294810625, 283880292679681, 65539, 146866177, 134283266, 65537,
  134217793, 206225539201, 136380417, 134284289, 206225670147, 134283265, 134283265, 206292713473, 134283265,
  134283265, 206292713473, 134283265, 134283265, 206292713473, 67, 134217793, 1, 65537, 65, 134217793, 136314946,
  206294745153, 134283265, 134283265, 206292713473, 134283265, 134283265, 206292713473, 134283265, 134283265,
  206292713473, 134283265, 134283265, 206292713473, 134283265, 134283265, 206292713473, 134283265, 134283265,
  206292713473, 134283265, 134283265, 206292713473, 134283265, 134283265, 206292713473, 134283265, 134283265,
  206292713473, 134283265, 134283265, 206292713473, 134283265, 134283265, 206292713473, 134283265, 134283265,
  206292713473, 134283265, 134283265, 206292713473, 69337090, 136380417, 139787829250, 69337090, 136380417,
  139787829250, 69337090, 136380417, 139787829250, 69337090, 136380417, 139787829250, 69337090, 136380417,
  139787829250, 69337090, 136380417, 139787829250, 131138, 206158561347, 208440197121, 208440197121, 208440197121,
  208440197121, 208440197121, 208440197121, 206292713473, 206292713473, 206292713473, 206292713473, 206292713473,
  206292713473, 206292713473, 206292713473, 206292713473, 206292713473, 206292713473, 206292713473, 65537, 65538,
  66565, 67239943, 1, 65537, 65537, 134283265, 65538, 134283266, 134283271, 206292713479, 65539, 83969, 153157633,
  153157633, 225620066305, 65537, 65537, 134283265, 134283265, 206292713473, 65537, 65537, 134283265, 134283265,
  206292713473, 65537, 65537, 134283265, 134283265, 206292713473, 65, 131138, 65, 131138, 1, 65537, 68609, 67239937,
  134283268, 206292713476, 135331843, 136380419, 134283265, 206292713473, 134283265, 134283265, 134283265,
  206292713473, 134283265, 134283265, 134283265, 206292713473, 134283265, 134283265, 134283265, 206292713473,
  134283267, 136380417, 146866177, 219177615361, 134283267, 136380417, 146866177, 219177615361, 134283267, 136380417,
  146866177, 219177615361, 134283267, 136380417, 146866177, 219177615361, 134283267, 136380417, 146866177,
  219177615361, 134283267, 136380417, 146866177, 219177615361, 65537, 1, 65537, 65537, 134283265, 65538, 134283265,
  134283267, 206292713475, 68611, 68609, 137428993, 137428993, 209513938945, 69633, 69633, 138477569, 138477569,
  210587680769, 69635, 81921, 151060481, 151060481, 223472582657, 69635, 81921, 151060481, 151060481, 223472582657, 1,
  1, 1, 1, 1, 1, 1, 1, 1, 1, 1, 1, 1, 1, 1, 67, 2, 70, 5, 65, 65, 65, 68719673479, 134283269, 134283269, 134283269,
  134283269, 134283269, 134283269, 134283269, 134283269, 134283269, 65, 67108997, 65, 67108998, 65, 1, 65539, 65, 65,
  1, 65537, 65537, 1, 65537, 65, 1, 65539, 65, 134217793, 1, 67587, 65539, 67239940, 65537, 134209, 5, 65539, 65539,
  70, 131140, 65537, 65539, 134283268, 69, 131138, 134217793, 65537, 134283266, 68, 136314947, 131139, 134414404,
  153092161, 136314945, 208306044993, 134209, 13791297, 14189461569, 12715073, 13087408193, 13020367938, 1183809,
  1279393857, 20056129, 1275201601, 33489551425, 21167947776065, 204603457, 13087408193, 13470225596481, 65537,
  67108995, 68719673476, 65537, 67585, 135331841, 136380417, 65, 65537, 66, 131140, 1, 65537, 1, 67587, 65539,
  134283267, 5, 67585, 77825, 65541, 134283265, 65537, 134283266, 69, 131138, 68, 136314947, 131139, 134414404, 65,
  131137, 158785, 2231361, 2352087105, 132161, 202506305, 131137, 201457729, 131137, 201457729, 134414401,
  206292910145, 65537, 134283265, 65537, 65537, 67585, 65537, 134283269, 134283269, 65, 65, 67585, 65537, 67587,
  65549, 134283265, 134283265, 65, 65537, 65537, 65, 65, 139460673, 136380417, 211527204993, 135266369, 134283265,
  136382465, 146878465, 209379721345, 219177549889, 134283265, 134283265, 134283269, 134283269, 206292713479,
  206292713477, 281681269424133, 206292713479, 206292713477, 206292713477, 206292713477, 281681269424133,
  281681269424135, 206292713477, 206292713477, 137363521, 67585, 65537, 136380419, 146866179, 134283265, 136314945,
  146866177, 206292713477, 206292713477, 206292713477, 65, 65, 65537, 65537, 134283269, 134283269, 65537, 65537,
  65537, 1, 65, 65, 158335041, 135266369, 162529345, 134217793, 134283265, 134283265, 69, 67108997, 67108997,
  137506062533, 137506062533, 137506062533, 137506062533, 137506062533, 137506062533, 65, 65, 65537, 67108997,
  67108997, 67587, 65549, 136380422, 146866182, 137363521, 146866177, 206292713478, 206292713480, 65537, 65537,
  67108998, 67108998, 67, 1, 65537, 66, 131143, 65, 65, 1, 65541, 65537, 65, 134217793, 66, 131141, 133185, 131137,
  134414402, 65537, 65537, 65537, 134283266, 134283266, 134283266, 65537, 65, 67, 65541, 69, 131141, 1, 65539, 65537,
  67585, 66561, 135331841, 65539, 134283269, 135334919, 134305793, 134283267, 206292713473, 65, 1, 65541, 65537,
  136380419, 209446895619, 209450041349, 131137, 65537, 134283265, 208373153797, 284842365485061, 65537, 65537,
  67108993, 67108993, 69, 65537, 65537, 134283271, 134284289, 71, 131137, 134283266, 134283266, 206292713479,
  206292713479, 67585, 65537, 134283265, 134283265, 134283265, 134283265, 206292713473, 134283265, 206292713473,
  206292713473, 206292713473, 281681269424129, 134283267, 134283267, 136380417, 136380417, 65539, 134283267,
  136380417, 146866177, 208440197121, 219177615361, 65537, 65537, 134283265, 134283265, 134283265, 134283265,
  206292713473, 134283265, 206292713473, 206292713473, 206292713473, 281681269424129, 134283269, 134283269, 134283265,
  134283265, 65541, 134283269, 134283265, 134283265, 206292713473, 206292713473, 65537, 65537, 134283265, 134283265,
  134283265, 134283265, 206292713473, 134283265, 206292713473, 206292713473, 206292713473, 281681269424129, 134283269,
  134283269, 134283265, 134283265, 65541, 134283269, 134283265, 134283265, 206292713473, 206292713473, 71068287105,
  134283265, 146866177, 65537, 65537, 134283265, 134283265, 134283265, 134283265, 206292713473, 206292713473, 1,
  65537, 71, 131137, 134283266, 134283266, 65537, 131137, 206292713473, 134283265, 134283265, 134283265, 206292713473,
  206292713473, 65537, 134283265, 134283265, 134283265, 65538, 134283269, 206292713477, 134283269, 134283269,
  134283269, 206292713477, 206292713477, 65541, 134283269, 134283269, 134283269, 65538, 134283269, 206292713477,
  134283269, 134283269, 134283269, 206292713477, 206292713477, 65541, 134283269, 134283269, 134283269, 65538,
  134283269, 206292713477, 134283269, 134283269, 134283269, 206292713477, 206292713477, 65541, 134283269, 134283269,
  134283269, 65538, 134283269, 206292713477, 134283269, 134283269, 134283269, 206292713477, 206292713477, 65541,
  134283269, 134283269, 134283269, 65537, 134283265, 65537, 140575745, 134283266, 1, 65537, 65, 134217793, 67,
  134217795, 131139, 201457731, 1, 67585, 65537, 134283265, 65537, 134283265, 65541, 67239938, 65541, 134283265,
  134283269, 206292713473, 65541, 134283265, 134310913, 206293762049, 140577797, 212738310145, 134283269,
  206292713473, 134283269, 206292713473, 206225670149, 281612482969601, 67108993, 67108993, 67108993, 134217793,
  65537, 65537, 134283265, 134283265, 134285313, 206225670146, 135331841, 136380417, 65537, 134283265, 134283265,
  206292713473, 134283265, 206292713473, 134283265, 206292713473, 134283265, 206292713473, 206292713473,
  281681269424129, 134283266, 134283266, 134283266, 135331841, 135331841, 207366455297, 135331841, 136380417, 67585,
  136380417, 136380417, 208440197121, 136380417, 208440197121, 136380417, 208440197121, 136380417, 208440197121,
  208440197121, 283880292679681, 134283270, 134283270, 134283270, 135331841, 135331841, 207366455297, 135331841,
  136380417, 67585, 136380417, 136380417, 208440197121, 136380417, 208440197121, 136380417, 208440197121, 136380417,
  208440197121, 208440197121, 283880292679681, 134283270, 134283270, 134283270, 135331841, 135331841, 207366455297,
  65537, 65, 66561, 65538, 65537, 65541, 65537, 65541, 1, 67587, 65543, 67239940, 69, 131137, 131141, 201457729,
  67587, 65549, 137363521, 146866177, 136380421, 146866181, 208440197125, 219177615367, 65541, 134283265, 134283269,
  206292713473, 1, 65537, 65538, 134283265, 68609, 137428993, 137428993, 209513938945, 68609, 137428993, 68609,
  137428993, 137428993, 209513938945, 68609, 137428993, 68609, 137428993, 137428993, 209513938945, 68609, 137428993,
  68609, 137428993, 137428993, 209513938945, 68609, 137428993, 134283265, 134285313, 206225670146, 151060481,
  151060481, 223472582657, 151060481, 151060481, 223472582657, 151060481, 151060481, 223472582657, 140574722,
  238437924865, 1, 65537, 65537, 65543, 134283265, 134286337, 136380417, 208440197121, 65537, 134283265, 134283265,
  148963333, 221325099013, 79877, 148963333, 148963333, 148963333, 221325099013, 79877, 148963333, 148963333,
  146866181, 219177615365, 77829, 146866181, 146866181, 148963333, 221325099013, 79877, 148963333, 148963333,
  148963333, 221325099013, 79877, 148963333, 148963333, 146866181, 219177615365, 77829, 146866181, 146866181,
  148963333, 221325099013, 79877, 148963333, 148963333, 148963333, 221325099013, 79877, 148963333, 148963333,
  146866181, 219177615365, 77829, 146866181, 146866181, 65537, 134283266, 65537, 134283269, 65537, 65539, 135266369,
  134283269, 206292713477, 67585, 136380417, 65539, 134283267, 134283267, 206292713475, 83969, 153157633, 83969,
  153157633, 153157633, 225620066305, 86017, 155254785, 83971, 153157635, 153157635, 225620066307, 86017, 155254785,
  83971, 153157635, 153157635, 225620066307, 206292713479, 134283271, 134284289, 208440197121, 153157633, 153157633,
  227767549953, 155254785, 155254785, 227767549953, 155254785, 155254785, 225620066305, 153157633, 153157633, 65,
  146866177, 65538, 134283266, 67589, 146866181, 67590, 146866182, 67590, 146866182, 67589, 146866181, 67590,
  146866182, 67590, 146866182, 67589, 146866181, 67590, 146866182, 67590, 146866182, 66, 136380417, 66563, 136380419,
  66565, 136380421, 66565, 136380421, 65541, 134283269, 66565, 136380421, 66565, 136380421, 65541, 134283269, 66565,
  136380421, 66565, 136380421, 65541, 134283269, 65537, 65, 65538, 65541, 65538, 65541, 65538, 65541, 65538, 65541,
  65538, 65541, 65538, 65541, 65538, 65541, 65538, 65541, 65538, 65541, 131139, 134283271, 135331847, 135331847,
  134283271, 135331847, 135331847, 134283271, 135331847, 135331847, 134283265, 136380422, 136380422, 136380421,
  136380422, 136380422, 136380421, 136380422, 136380422, 136380421, 65537, 65537, 134283265, 1, 131138, 152641, 65,
  131142, 132165, 202506305, 133187, 134414404, 134209, 204603457, 131138, 134414401, 134414406, 203554881,
  137640542276, 1, 65, 159809, 230817857, 2228289, 2250821, 224526401, 133186, 203554881, 277159804994, 2348941381,
  2336730841157, 2351038533, 2283997251, 131137, 153669, 2372010049, 2230338, 2351038529, 2476183060546, 201457733,
  137707585605, 203554885, 203556929, 1179714, 132162, 131138, 1180738, 1207363, 204606529, 1276248131, 1209205826,
  229769281, 1275199555, 1305804537923, 202506305, 276086063171, 158787, 1278348353, 202506307, 135464002, 1303511105,
  201457731, 206292910147, 1276248129, 1375597690947, 3279942, 1278345283, 3355639878, 2352087109, 278233546817,
  2231366, 204603459, 2281898054, 3425828933, 1377745174593, 1182790, 3425828931, 1208156230, 204603461,
  2477256802369, 134214, 2352087107, 134414406, 1278345285, 3576768430145, 131141, 201457733, 131141, 201457733,
  134414401, 275079364673, 275079364673, 211244007292993, 1, 25990135877, 13105233989, 32432586821, 220332101,
  19547684933, 6662783045, 29519942, 25905266757, 26664432173125, 4675273359427, 30199187523, 27422790, 26979008581,
  27763943800901, 2476250103875, 28051703875, 25325638, 29126492229, 29962967056453, 277226848323, 25904220227,
  16937030, 13020364869, 13470292639813, 11272343126083, 17314285635, 14839878, 14094106693, 14569804267589,
  9073319870531, 15166801987, 12742726, 16241590341, 16768827523141, 6874296614979, 13019318339, 4354118, 135462981,
  276153106501, 24466482659395, 4496427075, 2256966, 1209204805, 1375664734277, 22267459403843, 2348943427, 159814,
  3356688453, 3574687989829, 20068436148291, 201459779, 28443713, 224527425, 29126494273, 29894316785729, 26000621637,
  354249037054017, 26594708160577, 26346561, 2372011073, 26979010625, 27695293530177, 28148105285, 2606048850739265,
  28793731416129, 25297985, 4519494721, 25905268801, 26595781902401, 30295588933, 4857848664424513, 30992754671681,
  15860801, 6666978369, 16241592385, 16700177252417, 13115719749, 7109648478109761, 13400568627265, 13763649,
  8814462017, 14094108737, 14501153996865, 15263203397, 9361448291795009, 15599591882817, 12715073, 10961945665,
  13020366913, 13401642369089, 17410687045, 11613248105480257, 17798615138369, 3277889, 19551880257, 3423733825,
  3574690086977, 230817861, 20620447360221249, 275081461825, 1180737, 21699363905, 1276250177, 1375666831425,
  2378301509, 22872247173906497, 2474104717377, 132161, 23846847553, 202508353, 276155203649, 4525785157,
  25124046987591745, 4673127972929, 25996427333, 294406717505, 220332097, 13111525445, 6891476484161, 6662783041,
  226623557, 20085616017473, 19547684929, 36643736646, 30268325954, 11203693903939, 34496252998, 28120842306,
  9004670648387, 32348769350, 25973358658, 6805647392835, 23758834758, 17383424066, 4675276505153, 21611351110,
  15235940418, 2476253249601, 19463867462, 13088456770, 277229994049, 30268329029, 36710776898, 24397833437251,
  28120845381, 34563293250, 22198810181699, 25973361733, 32415809602, 19999786926147, 10873932870, 4498522178,
  17869416038465, 8726449222, 2351038530, 15670392782913, 6578965574, 203554882, 13471369527361, 17383427141,
  23825875010, 37591972970563, 15235943493, 21678391362, 35392949715011, 13088459845, 19530907714, 33193926459459,
  4498525253, 10940973122, 31063555571777, 2351041605, 8793489474, 28864532316225, 203557957, 6646005826,
  26665509060673, 26665438871621, 28864462127173, 31063485382725, 13471299338309, 15670322593861, 17869345849413,
  33262508638277, 35461531893829, 37660555149381, 277159804997, 2476183060549, 4675206316101, 20068369104965,
  22267392360517, 24466415616069, 6874229571653, 9073252827205, 11272276082757, 4499570755, 2352087107, 5573312579,
  204603459, 3425828931, 1278345283, 4525785155, 207500738625, 353080940101697, 23201858, 229771329, 2378301507,
  1307012366401, 1478980846944321, 21104706, 1303513153, 230817859, 3506035621953, 3730780660629569, 19007554,
  3450996801, 17410687043, 13401640271937, 13863879822213185, 10618946, 13114673217, 15263203395, 14501151899713,
  14989779729055809, 8521794, 14188415041, 13115719747, 16700175155265, 17241579542741057, 6424642, 16335898689,
  30295588931, 26595779805249, 27374678704324673, 4327490, 25999575105, 28148105283, 27695291433025,
  28500578611167297, 2230338, 27073316929, 26000621635, 29894314688577, 30752378424852545, 133186, 29220800577,
  4500619331, 204603457, 278300590145, 2353135683, 1278345281, 1377812217921, 205652035, 3425828929, 3576835473473,
  31273978948, 30267277382, 27695294578754, 29126495300, 28119793734, 26595782950978, 30200237124, 31341019206,
  29894317834306, 26979011652, 25972310086, 28794806206530, 28052753476, 29193535558, 32093341089858, 25905269828,
  27046051910, 30993829462082, 18389077060, 17382375494, 14501155045442, 16241593412, 15234891846, 13401643417666,
  17315335236, 18456117318, 16700178300994, 14094109764, 13087408198, 15600666673218, 15167851588, 16308633670,
  18899201556546, 13020367940, 14161150022, 17799689928770, 5571218499, 4497473606, 1375667880001, 3423734851,
  2349989958, 276156252225, 4497476675, 5571215430, 3574691135553, 1276251203, 202506310, 2475179507777, 2349993027,
  3423731782, 5773714391105, 202509379, 1276248134, 4674202763329, 4674132574275, 2475109318723, 5773644202051,
  276086063171, 3574620946499, 1375597690947, 17868272107587, 15669248852035, 18967783735363, 13470225596483,
  16768760479811, 14569737224259, 31062411640899, 28863388385347, 32161923268675, 26664365129795, 29962900013123,
  27763876757571, 3279941, 135234, 205652033, 205653057, 279307288643, 1182789, 2232386, 2353135681, 2353136705,
  2478330544195, 134213, 4329538, 4500619329, 4500620353, 4677353799747, 19530907717, 3423731781, 230820929,
  305077092417, 21678391365, 1276248133, 2378304577, 2504100347969, 23825875013, 202506309, 4525788225, 4703123603521,
  6646005829, 16308633669, 13115722817, 13499216625729, 8793489477, 14161150021, 15263206465, 15698239881281,
  10940973125, 13087408197, 17410690113, 17897263136833, 203554885, 29193535557, 26000624705, 26693356159041,
  2351038533, 27046051909, 28148108353, 28892379414593, 4498522181, 25972310085, 30295592001, 31091402670145,
  19023941, 155714, 226623553, 226625601, 300782125122, 6441029, 12738626, 13111525441, 13111527489, 13494921658434,
  149573, 25321538, 25996427329, 25996429377, 26689061191746, 65537, 65537, 67239940, 134283265, 67239938, 67239937,
  67239941, 67239937, 68920934402, 137640345601, 67239937, 68920934402, 137640345601, 67239937, 68920934404,
  137640345601, 67239938, 68920934401, 137640345601, 68920934403, 137640345601, 68920934403, 137640345601,
  70643823542276, 141012567654401, 211381244723201, 67239937, 68920934404, 137640345601, 67239937, 67239937,
  68923031554, 137640345601, 67239938, 68923031553, 137640345601, 70643823542276, 141014715138049, 211381244723201,
  68920934401, 137640345601, 70644897284099, 141012567654401, 211381244723201, 68920934403, 137640345601, 68923031555,
  137640345601, 67239937, 67239938, 67239937, 68924080132, 137640345601, 68920934402, 137640345601, 68921982978,
  137640345601, 68921982979, 137640345601, 68920934401, 137640345601, 70643823542273, 141014715138050,
  211381244723201, 68921982977, 137640345601, 70643823542276, 141013641396225, 211381244723201, 67239941, 68923031554,
  137640345601, 68920934405, 137640345601, 68921982979, 137640345601, 70644897284099, 141014715138050,
  211381244723201, 67239941, 68923031555, 137640345601, 67239941, 68921982979, 137640345601, 68920934401,
  137640345601, 70644897284099, 141012567654401, 211381244723201, 70645971025922, 141012567654401, 211381244723201,
  72410812349808643, 144467306876043265, 216527099870117890, 288582426165313537, 68927225857, 137640345601, 67239941,
  68925128705, 137640345601, 70647044767747, 141013641396225, 211381244723201, 70663150895106, 141019010105345,
  211381244723201, 68939808769, 137640345601, 67239937, 68949245954, 137640345601, 68944003073, 137640345601,
  70643823542276, 141036189974529, 211381244723201, 68924080131, 137640345601, 72413011373064195, 144487098085343234,
  216531497916628993, 288582426165313537, 70647044767747, 141031895007233, 211381244723201, 68920934403, 137640345601,
  70663150895106, 141019010105345, 211381244723201, 68946100225, 137640345601, 68930371587, 137640345601, 68927225861,
  137640345601, 70663150895106, 141022231330819, 211381244723201, 70647044767747, 141019010105345, 211381244723201,
  68921982977, 137640345601, 68939808770, 137640345601, 70663150895106, 141016862621697, 211381244723201,
  72413011373064195, 144468406387671041, 216544692056162306, 288582426165313537, 67239937, 68944003075, 137640345601,
  68920934402, 137640345601, 68925128705, 137640345601, 70647044767747, 141013641396225, 211381244723201, 68940857346,
  137640345601, 68921982981, 137640345601, 70647044767747, 141032968749058, 211381244723201, 70644897284097,
  141031895007234, 211381244723201, 67239941, 67239938, 68924080129, 137640345601, 68924080130, 137640345601,
  70643823542276, 141015788879873, 211381244723201, 68924080131, 137640345601, 68939808771, 137640345601, 68942954500,
  137640345601, 70647044767747, 141031895007234, 211381244723201, 67239941, 67239938, 68939808769, 137640345601,
  68939808771, 137640345601, 70643823542276, 141031895007233, 211381244723201, 1, 134285315, 65538, 134283267,
  281681269424135, 206292713479, 206292713480, 206295859201, 206295859203, 281684490649603, 206295859205,
  281684490649601, 281684490649603, 206295859201, 281684490649603, 206295859203, 281684490649603, 281684490649603,
  360572949993947139, 281684490649603, 281684490649603, 360572949993947139, 206294810627, 206311587843, 134284293,
  206293762049, 206293762051, 206293762051, 281682343165955, 206293762049, 281682343165955, 206293762053,
  281682343165953, 206293762051, 281682343165955, 281682343165955, 360570750970691587, 206292713479, 206294810631,
  281700596776967, 281700596776967, 360589442668363783, 281683416907783, 281700596776967, 281683416907783,
  281700596776967, 360571850482319367, 360589442668363783, 281683416907783, 281700596776967, 206294810631,
  206311587847, 281700596776967, 281683416907783, 281700596776967, 206294810631, 206311587847, 134283272,
  206292713480, 206292713480, 281681269424136, 281681269424136, 281681269424136, 281681269424136, 281681269424136,
  281681269424136, 206292713479, 206292713479, 206294810631, 206311587847, 281683416907783, 281700596776967,
  206292713480, 206292713480, 134283266, 206292713479, 134283266, 206292713475, 206292713475, 206292713473,
  281681269424131, 206292713474, 206294810626, 206311587842, 1, 65541, 134283269, 206296907777, 206296907777,
  281685564391425, 206292713477, 206317879301, 134284290, 135359491, 207394766851, 207394766855, 207394766855,
  207394766855, 282809772081159, 207394766855, 282809772081159, 282809772081159, 282809772081159, 361725238179856391,
  207367503879, 207369601031, 207367503879, 207367503879, 135331847, 207366455303, 206293762050, 206321025026,
  282781854793735, 282809772081159, 135332866, 134310915, 206321025027, 206321025031, 206321025031, 206321025031,
  281710260453383, 206321025031, 281710260453383, 281710260453383, 281710260453383, 360599338273013767, 206293762055,
  206295859207, 206293762055, 206293762055, 134283271, 206292713479, 207367503874, 207394766850, 281682343165959,
  281710260453383, 134283266, 209513938952, 284983025532936, 209535959047, 209517084680, 209535959048,
  285002352885768, 285002352885768, 137432067, 209517084679, 209517084680, 209535959048, 135331842, 208440197128,
  283883513905160, 208462217223, 208443342856, 208462217224, 283902841257992, 283902841257992, 136383491,
  208443342855, 208443342856, 208462217224, 136380418, 207366455304, 282784002277384, 207388475399, 207369601032,
  207388475400, 282803329630216, 282803329630216, 135334915, 207369601031, 207369601032, 207388475400, 137428994,
  206292713480, 281684490649608, 206314733575, 206295859208, 206314733576, 281703818002440, 281703818002440,
  134286339, 206295859207, 206295859208, 206314733576, 206294810625, 206315782145, 136402949, 208463265793,
  208463265795, 283903914999811, 208463265795, 283903914999811, 208463265797, 283903914999809, 208463265795,
  283903914999811, 283903914999811, 362845640528560131, 208440197126, 208442294278, 208459071494, 208442294275,
  208442294275, 283882440163331, 208442294273, 208463265793, 134305797, 206315782145, 206315782147, 281704891744259,
  206315782147, 281704891744259, 206315782149, 281704891744257, 206315782147, 281704891744259, 281704891744259,
  360593840714874883, 206292713478, 206294810630, 206311587846, 206294810627, 206294810627, 281683416907779,
  134285314, 136380421, 136382466, 134283269, 134283269, 206292713473, 206292713473, 281681269424129, 206292713477,
  206317879301, 281681269424133, 281707039227909, 1, 236357484552, 234210000904, 232062517256, 223472582664,
  221325099016, 219177615368, 210587680776, 208440197128, 206292713480, 153176069, 225638940673, 225638940673,
  301491806076929, 134307842, 206317879297, 140593157, 212754038785, 212754038785, 288297666543617, 146890754,
  219202781185, 134301701, 206311587841, 206311587841, 281700596776961, 159473666, 232087683073, 232087683075,
  232087683075, 308095318294531, 219202781187, 219202781187, 294901178761219, 206317879299, 206317879299,
  281707039227907, 236386844680, 312497659772936, 163672067, 236386844679, 236386844680, 234239361032,
  310298636517384, 161574915, 234239361031, 234239361032, 232091877384, 308099613261832, 159477763, 232091877383,
  232091877384, 223501942792, 299303520239624, 151089155, 223501942791, 223501942792, 221354459144, 297104496984072,
  148992003, 221354459143, 221354459144, 219206975496, 294905473728520, 146894851, 219206975495, 219206975496,
  210617040904, 286109380706312, 138506243, 210617040903, 210617040904, 208469557256, 283910357450760, 136409091,
  208469557255, 208469557256, 206322073608, 281711334195208, 134311939, 206322073607, 206322073608, 134287362,
  206296907778, 137432069, 209517084677, 209517084677, 284983025532933, 136384514, 208444391426, 135334917,
  207369601029, 207369601029, 282784002277381, 138481666, 210591875074, 134286341, 206295859205, 206295859205,
  281684490649605, 286083610902535, 210591875079, 210591875079, 283884587646983, 208444391431, 208444391431,
  281685564391431, 206296907783, 206296907783, 162595845, 235312054278, 160498693, 233164570630, 159450117,
  232090828806, 150012933, 222427152390, 147915781, 220279668742, 146867205, 219205926918, 137430021, 209542250502,
  135332869, 207394766854, 134284293, 206321025030, 157353991, 229938102279, 155256839, 227790618631, 153159687,
  225643134983, 144771079, 217053200391, 142673927, 214905716743, 140576775, 212758233095, 138479623, 210610749447,
  136382471, 208463265799, 134285319, 206315782151, 134283266, 156303365, 136380418, 154206213, 138477570, 153157637,
  146866178, 143720453, 148963330, 141623301, 151060482, 140574725, 159449090, 137428997, 161546242, 135331845,
  163643394, 134283269, 229917130759, 227769647111, 225622163463, 217032228871, 214884745223, 212737261575,
  210589777927, 208442294279, 206294810631, 235284791302, 233137307654, 232063565830, 222399889414, 220252405766,
  219178663942, 209514987526, 207367503878, 206293762054]

def dev_CC2 : List ITerm := [
  ⟨-1, 1, [(chars! "v.ovvv", [0, 3, 4, 5]), (chars! "t2", [0, 1, 4, 11]), (chars! "l2", [3, 11, 1, 2]), (chars! "dt1", [2, 5])]⟩,
  ⟨1, 4, [(chars! "v.ooov", [0, 1, 2, 3]), (chars! "t2", [0, 1, 4, 5]), (chars! "l2", [4, 5, 2, 8]), (chars! "dt1", [8, 3])]⟩,
  ⟨1, 4, [(chars! "v.ovvv", [0, 3, 4, 5]), (chars! "t2", [1, 2, 4, 5]), (chars! "l2", [3, 11, 1, 2]), (chars! "dt1", [0, 11])]⟩,
  ⟨-1, 1, [(chars! "v.ooov", [0, 1, 2, 3]), (chars! "t2", [0, 8, 3, 4]), (chars! "l2", [4, 5, 2, 8]), (chars! "dt1", [1, 5])]⟩,
  ⟨-1, 1, [(chars! "v.oovv", [0, 1, 3, 4]), (chars! "t1", [2, 3]), (chars! "t2", [0, 8, 4, 5]), (chars! "l2", [5, 11, 2, 8]), (chars! "dt1", [1, 11])]⟩,
  ⟨1, 2, [(chars! "v.oovv", [0, 1, 3, 4]), (chars! "t1", [0, 3]), (chars! "t2", [2, 8, 4, 5]), (chars! "l2", [5, 11, 2, 8]), (chars! "dt1", [1, 11])]⟩,
  ⟨1, 4, [(chars! "v.oovv", [0, 1, 3, 4]), (chars! "t1", [0, 5]), (chars! "t2", [2, 8, 3, 4]), (chars! "l2", [5, 11, 2, 8]), (chars! "dt1", [1, 11])]⟩,
  ⟨-1, 1, [(chars! "v.oovv", [0, 1, 3, 4]), (chars! "t1", [0, 5]), (chars! "t2", [1, 2, 3, 11]), (chars! "l2", [5, 11, 2, 8]), (chars! "dt1", [8, 4])]⟩,
  ⟨1, 4, [(chars! "v.oovv", [0, 1, 3, 4]), (chars! "t1", [2, 3]), (chars! "t2", [0, 1, 5, 11]), (chars! "l2", [5, 11, 2, 8]), (chars! "dt1", [8, 4])]⟩,
  ⟨-1, 2, [(chars! "v.ovvv", [0, 3, 4, 5]), (chars! "t2", [1, 2, 4, 11]), (chars! "l2", [3, 11, 1, 2]), (chars! "dt1", [0, 5])]⟩,
  ⟨-1, 2, [(chars! "v.oovv", [0, 1, 3, 4]), (chars! "t1", [0, 5]), (chars! "t2", [2, 8, 3, 11]), (chars! "l2", [5, 11, 2, 8]), (chars! "dt1", [1, 4])]⟩,
  ⟨-1, 2, [(chars! "v.oovv", [0, 1, 3, 4]), (chars! "t1", [2, 3]), (chars! "t2", [0, 8, 5, 11]), (chars! "l2", [5, 11, 2, 8]), (chars! "dt1", [1, 4])]⟩,
  ⟨-1, 2, [(chars! "v.ooov", [0, 1, 2, 3]), (chars! "t2", [0, 8, 4, 5]), (chars! "l2", [4, 5, 2, 8]), (chars! "dt1", [1, 3])]⟩,
  ⟨1, 2, [(chars! "v.oovv", [0, 1, 3, 4]), (chars! "t1", [0, 3]), (chars! "t2", [1, 2, 5, 11]), (chars! "l2", [5, 11, 2, 8]), (chars! "dt1", [8, 4])]⟩,
  ⟨1, 4, [(chars! "v.ovvv", [0, 3, 4, 5]), (chars! "t1", [0, 11]), (chars! "l2", [3, 11, 1, 2]), (chars! "dt2", [1, 2, 4, 5])]⟩,
  ⟨1, 8, [(chars! "v.vvvv", [3, 4, 5, 11]), (chars! "l2", [3, 4, 0, 1]), (chars! "dt2", [0, 1, 5, 11])]⟩,
  ⟨1, 8, [(chars! "v.oovv", [0, 1, 3, 4]), (chars! "t1", [0, 5]), (chars! "t1", [1, 11]), (chars! "l2", [5, 11, 2, 8]), (chars! "dt2", [2, 8, 3, 4])]⟩,
  ⟨-1, 1, [(chars! "v.ooov", [0, 1, 2, 3]), (chars! "t1", [0, 4]), (chars! "l2", [4, 5, 2, 8]), (chars! "dt2", [1, 8, 3, 5])]⟩,
  ⟨-1, 1, [(chars! "v.ovov", [0, 3, 1, 4]), (chars! "l2", [4, 5, 0, 2]), (chars! "dt2", [1, 2, 3, 5])]⟩,
  ⟨-1, 1, [(chars! "v.ovvv", [0, 3, 4, 5]), (chars! "t1", [1, 4]), (chars! "l2", [3, 11, 1, 2]), (chars! "dt2", [0, 2, 5, 11])]⟩,
  ⟨1, 2, [(chars! "v.ovvv", [0, 3, 4, 5]), (chars! "t1", [0, 4]), (chars! "l2", [3, 11, 1, 2]), (chars! "dt2", [1, 2, 5, 11])]⟩,
  ⟨1, 2, [(chars! "v.ooov", [0, 1, 2, 3]), (chars! "t1", [0, 3]), (chars! "l2", [4, 5, 2, 8]), (chars! "dt2", [1, 8, 4, 5])]⟩,
  ⟨-1, 2, [(chars! "v.oovv", [0, 1, 3, 4]), (chars! "t1", [0, 3]), (chars! "t1", [1, 5]), (chars! "l2", [5, 11, 2, 8]), (chars! "dt2", [2, 8, 4, 11])]⟩,
  ⟨-1, 2, [(chars! "v.oovv", [0, 1, 3, 4]), (chars! "t1", [0, 3]), (chars! "t1", [2, 4]), (chars! "l2", [5, 11, 2, 8]), (chars! "dt2", [1, 8, 5, 11])]⟩,
  ⟨-1, 1, [(chars! "v.oovv", [0, 1, 3, 4]), (chars! "t1", [0, 5]), (chars! "t1", [2, 3]), (chars! "l2", [5, 11, 2, 8]), (chars! "dt2", [1, 8, 4, 11])]⟩,
  ⟨1, 8, [(chars! "v.oooo", [0, 1, 2, 8]), (chars! "l2", [3, 4, 0, 1]), (chars! "dt2", [2, 8, 3, 4])]⟩,
  ⟨1, 4, [(chars! "v.ooov", [0, 1, 2, 3]), (chars! "t1", [8, 3]), (chars! "l2", [4, 5, 2, 8]), (chars! "dt2", [0, 1, 4, 5])]⟩,
  ⟨1, 8, [(chars! "v.oovv", [0, 1, 3, 4]), (chars! "t1", [2, 3]), (chars! "t1", [8, 4]), (chars! "l2", [5, 11, 2, 8]), (chars! "dt2", [0, 1, 5, 11])]⟩]

def grad_CC2 : List Nat := [
  1, 1, 1, 1, 65, 65537, 65537, 134283265, 1, 1, 1, 1, 1, 1, 1, 1, 1, 1, 1, 1, 65537, 65537, 134283267, 65, 65537,
  134217795, 65, 65537, 201457735, 131137, 131138, 65, 65543, 206292713475, 65537, 65, 65, 65, 134217793, 131143,
  135331841, 137640345602, 206225670148, 65, 65, 1, 65539, 65537, 2113, 65666, 67239939, 65538, 206292713473,
  134283265, 134283265, 134283265, 134283265, 134283265, 206292713473, 67585, 67585, 65538, 65538, 66561, 66561, 66,
  134217793, 281475178168385, 65537, 66, 65537, 134283266, 67587, 67239940, 65537, 134283268, 66, 131137, 134217797,
  134217793, 206158561345, 1, 1, 1, 1, 1, 1, 1, 1, 1, 1, 1, 1, 1, 1, 65537, 65537, 65537, 65, 65537, 65537, 1, 65539,
  65539, 65, 1, 65539, 65537, 65537, 70385665, 134283265, 131137, 67108993, 67108994, 65543, 134283265, 134283271,
  67239937, 67108994, 71, 131137, 65537, 65537, 206292713479, 65, 1, 65537, 65, 67, 134217795, 67587, 135266369,
  135331841, 134283266, 135331841, 65539, 134283267, 71, 131140, 208373153793, 134414402, 134283265, 65537, 134283265,
  66561, 65538, 67585, 1, 65537, 65542, 134283268, 65, 131138, 65541, 134283266, 65540, 69337091, 134283267,
  206225670148, 65537, 65, 70385665, 67239937, 67108993, 65, 65, 65, 68288513, 69208193, 140861505601, 65541, 65,
  65537, 67239937, 65537, 67108997, 65537, 5, 140660244677, 134283269, 134283269, 65541, 134283269, 134283269,
  134283269, 65541, 134283269, 134283269, 134283269, 65541, 134283269, 134283269, 134283269, 65541, 134283269,
  134283265, 134283265, 65541, 134283269, 134283265, 134283265, 65541, 134283269, 135331841, 134283270, 135331841,
  135331841, 134283270, 135331841, 66, 66, 65538, 66, 65537, 206292713473, 65537, 206292713473, 65537, 65541, 65537,
  65541, 206292713473, 206292713473, 206292713477, 206292713477, 206292713477, 206292713477, 69, 131141, 201457729,
  67108998, 2, 134283269, 68920803461, 70, 134285315, 206292713478, 65537, 134283265, 136383489, 208443342849,
  134284289, 206293762049, 134283265, 206292713473, 134283265, 206292713473, 206225670145, 281612482969601, 65539,
  134283265, 67108997, 137506062535, 137506062533, 211243738595589, 134283269, 134283269, 69, 67108997, 137506062533,
  137506062533, 137506062533, 134283270, 134283270, 66, 131143, 66, 131141, 133185, 131137, 134414402, 134283266,
  206292713479, 134283266, 206292713479, 65537, 65537, 134283265, 1, 65, 131138, 131142, 132165, 202506305, 133187,
  134414404, 134209, 204603457, 131138, 134414401, 134414406, 203554881, 137640542276, 1, 201457733, 65, 131138,
  1305804537923, 206292910147, 202506305, 1276248129, 3355639878, 2281898054, 1208156230, 134414406, 203554881,
  2336730841157, 2351038529, 137707585605, 132162, 1180738, 2228289, 131137, 133186, 2230338, 1179714, 201457733,
  211244007292993, 65537, 65537, 67239940, 134283265, 67239938, 67239941, 67239937, 68920934402, 137640345601,
  67239937, 68920934402, 137640345601, 67239937, 68920934404, 137640345601, 67239938, 68920934401, 137640345601,
  68920934403, 137640345601, 68920934403, 137640345601, 70643823542276, 141012567654401, 211381244723201, 68923031555,
  137640345601, 67239937, 70643823542273, 141014715138050, 211381244723201, 68921982977, 137640345601, 68920934405,
  137640345601, 68923031553, 137640345601, 70644897284099, 141012567654401, 211381244723201, 67239938, 67239937,
  67239938, 68921982979, 137640345601, 72410812349808643, 144467306876043265, 216527099870117890, 288582426165313537,
  1, 206294810631, 65538, 206294810631, 281683416907783, 134283267, 206294810631, 281683416907783, 134284293,
  206293762049, 206293762051, 281682343165955, 206293762049, 281682343165955, 206293762053, 281682343165953,
  206293762051, 281682343165955, 281682343165955, 360570750970691587, 134285315, 206294810627, 206292713479,
  281683416907783, 281683416907783, 360571850482319367, 206292713479, 206292713479, 134283272, 206292713480,
  281681269424136, 281681269424136, 281681269424136, 206292713480, 206292713480, 134283266, 206292713479, 134283266,
  206292713475, 206292713475, 206292713473, 281681269424131, 206292713474, 281681269424135, 206294810626,
  281683416907783, 1, 206292713477, 134283269, 65541, 281681269424133, 209513938952, 209517084680, 137432067,
  209517084679, 208440197128, 208443342856, 136383491, 208443342855, 207366455304, 207369601032, 135334915,
  207369601031, 206292713480, 206295859208, 134286339, 206295859207, 206293762050, 207367503879, 135331847,
  207366455303, 207367503874, 206293762055, 134283271, 206292713479, 206294810625, 208440197126, 208442294275,
  208442294273, 206292713478, 206294810627, 134283266, 135331842, 136380418, 137428994, 134284290, 282781854793735,
  135332866, 281682343165959, 134285314, 136380421, 136382466, 134283269, 283882440163331, 281683416907779,
  284983025532936, 283883513905160, 282784002277384, 281684490649608, 134283269, 206292713473, 281681269424129, 1, 1,
  1, 1, 206292713473, 1, 1, 1, 1, 206292713473, 1, 1, 1, 1, 206292713473, 1, 1, 1, 1, 206292713473, 1, 1, 1, 1, 1,
  281681269424129, 1, 1, 1, 1, 1, 281681269424129, 1, 1, 1, 1, 1, 281681269424129, 1, 1, 1, 1, 1, 281681269424129, 1,
  1, 1, 1, 1, 281681269424129, 1, 1, 1, 1, 206292713473, 1, 1, 1, 1, 1, 281681269424129, 1, 1, 1, 1, 1,
  281681269424129, 1, 1, 1, 1, 206292713473, 1, 1, 1, 1, 1, 281681269424129, 1, 1, 1, 1, 206292713473, 1, 1, 1,
  134283265, 1, 1, 1, 1, 1, 281681269424129, 1, 1, 1, 1, 206292713473, 1, 1, 1, 134283265, 1, 1, 1, 1, 206292713473,
  1, 1, 1, 1, 206292713473, 1, 1, 1, 1, 206292713473, 1, 1, 1, 1, 1, 281681269424129, 1, 1, 1, 1, 1, 281681269424129,
  1, 1, 1, 1, 1, 281681269424129, 1, 1, 1, 134283265, 1, 1, 1, 1, 206292713473, 1, 1, 1, 1, 1, 281681269424129]

def dev_CCSD_S_1_1 : List ITerm := [
  ⟨-1, 1, [(chars! "G", [6]), (chars! "l1", [3, 0]), (chars! "du11", [6, 0, 3])]⟩,
  ⟨-1, 1, [(chars! "g.bov", [6, 0, 3]), (chars! "t1", [0, 3]), (chars! "l1", [4, 1]), (chars! "du11", [6, 1, 4])]⟩,
  ⟨1, 1, [(chars! "g.bov", [6, 0, 3]), (chars! "s1", [6]), (chars! "ls1", [7]), (chars! "du11", [7, 0, 3])]⟩,
  ⟨1, 1, [(chars! "v.oovv", [0, 1, 3, 4]), (chars! "t1", [0, 3]), (chars! "ls1", [6]), (chars! "du11", [6, 1, 4])]⟩,
  ⟨1, 1, [(chars! "f.ov", [0, 3]), (chars! "ls1", [6]), (chars! "du11", [6, 0, 3])]⟩]

def grad_CCSD_S_1_1 : List Nat := [
  1, 1, 1, 1, 1, 1, 1, 1, 4, 65537, 65537, 134283265, 1, 65, 65537, 134283265, 65537, 65537, 1, 1, 1, 1, 1, 1, 1, 1,
  1, 1, 1, 1, 1, 1, 1, 1, 1, 1, 1, 1, 1, 1, 1, 1, 1, 1, 1, 65, 65539, 131140, 134283265, 131140, 67239938, 67239938,
  7, 1179714, 1089, 65, 65537, 65537, 65537, 65, 65537, 65537, 134217797, 1, 134217793, 134217793, 65, 134283265,
  134283265, 65537, 67240961, 135331842, 66561, 134285313, 136380417, 67585, 67243009, 137428996, 68609, 134283265,
  134283268, 65537, 65, 65537, 1, 131137, 65, 134283265, 65537, 131137, 65, 65, 65537, 65537, 65537, 65537, 65537, 67,
  65537, 65537, 67241985, 136380423, 134284289, 135331841, 67, 65537, 67239937, 134284289, 1, 134217793, 134217793,
  65, 134283265, 134283265, 65537, 1, 134217793, 134217793, 134217797, 134217793, 206158561345, 206158561345, 131137,
  66, 134283265, 67239937, 134283271, 134283267, 206292713473, 206292713475, 134283265, 65538, 65, 65537, 67239937,
  134283265, 65537, 68, 65537, 65537, 65537, 1, 134217793, 134217793, 65, 1, 65, 65537, 134283265, 65, 134217795, 71,
  65537, 65, 131140, 134283265, 131138, 67239938, 206292648001, 206292648001, 134217793, 201457731, 206294810625,
  208440197121, 136380417, 206225670146, 65, 65537, 65537, 65537, 1, 201457729, 131137, 131137, 131137, 65,
  206292713473, 134283265, 134283265, 134283265, 65537, 65, 65537, 67, 65537, 206158561345, 131143, 134217797,
  206292713473, 134283265, 134283265, 65537, 134283265, 206292713473, 134283265, 134283265, 134283265, 65537,
  206292713473, 134283265, 134283265, 65537, 134283265, 206292713473, 134283265, 134283265, 134283265, 65537,
  206292713473, 134283265, 134283265, 65537, 134283265, 206292713473, 134283265, 134283265, 134283265, 65537,
  206292713473, 134283265, 134283265, 65537, 134283265, 206292713473, 134283265, 134283265, 134283265, 65537,
  206292713473, 134283265, 134283265, 69, 65538, 65, 131137, 201457735, 137640345602, 131141, 135331841, 134283265,
  134283265, 67239939, 134283265, 2, 137642442753, 208440197123, 136380417, 67241985, 67585, 206293762049,
  207366455297, 135331841, 134284289, 66561, 134283265, 134283265, 65537, 206292713473, 206292713473, 206292713473,
  134283265, 134283265, 65537, 134283265, 134283265, 65537, 206292713473, 206292713473, 206292713473, 134283265,
  134283265, 65537, 65537, 67585, 67585, 68, 134217793, 134283265, 65537, 65537, 135331842, 67240961, 136380417,
  134285313, 134283265, 206292713473, 206292713473, 134283265, 206292713473, 134283265, 134283265, 134283265,
  134283265, 206292713473, 206292713473, 134283265, 206292713473, 134283265, 134283265, 134283265, 65537, 65,
  134217795, 134283265, 70, 67239941, 134283265, 134283265, 134283265, 134283265, 134283265, 65537, 65, 67587, 67587,
  4, 1208156226, 1181761, 1094, 4, 134414404, 136314947, 72, 6, 281475178168385, 206292648001, 134217793, 66, 68,
  65537, 1, 134217793, 65, 67243009, 68609, 1, 206292713479, 134283265, 134283266, 67239937, 134283271, 65537, 1,
  134283265, 65537, 1, 67, 206158561345, 131137, 206292648001, 134217793, 65, 134217797, 1, 68, 65, 134217793, 1,
  65537, 65537, 134283265, 65537, 2, 65, 67, 71, 72, 8, 2115, 65, 65, 1, 1, 71, 1, 1, 1, 1, 1, 1, 1, 1, 1, 1, 1, 1, 1,
  1, 1, 1, 1, 1, 1, 1, 1, 1, 1, 1, 1, 1, 1, 1, 1, 1, 65, 67587, 67587, 134283270, 65537, 134283265, 135266369,
  136382465, 209379721345, 135266369, 136380422, 208440197126, 207299411974, 135266369, 135267393, 134283265,
  136380422, 66561, 134283265, 134283265, 134283265, 134283265, 2113, 134283269, 65, 65537, 65537, 65537, 65, 65537,
  65537, 65537, 206225670145, 67108993, 2115, 134283265, 65537, 65537, 67108993, 134283266, 65537, 134283266, 65,
  65539, 65539, 65539, 131139, 134283265, 65539, 7, 3276868, 3142, 1179714, 1089, 134283265, 65537, 65, 65537, 65537,
  65537, 131137, 134217793, 134283265, 208440197127, 206292713473, 134217797, 1, 67243009, 137428994, 68609, 67243009,
  137428996, 68609, 134283265, 134283265, 65537, 134217793, 134217793, 65, 134283265, 134283265, 65537, 131137,
  131141, 66, 65, 67587, 67587, 3, 131140, 67, 4, 136314947, 134414404, 131139, 68, 65, 65537, 65537, 65537, 1,
  134217793, 65, 2, 2113, 1278345281, 1182785, 1275200577, 1276248129, 1180737, 1275199553, 1305804537921, 3355639873,
  1179713, 1275199553, 3276865, 1089, 1179713, 67, 206292713478, 281681269424134, 206292713478, 206292713480,
  134283270, 7, 67, 2115, 2228293, 1, 71068287109, 69206150, 65, 65537, 65537, 65537, 71, 65537, 2115, 65537, 65,
  65537, 65537, 1, 131137, 65, 134283265, 65537, 65, 65537, 65537, 65537, 65537, 65537, 67, 65537, 65537,
  208373153794, 136380417, 207366455297, 135331841, 2115, 65537, 134285313, 135331841, 134283269, 134283265,
  134283269, 134283265, 1, 206158561345, 206158561345, 131137, 134217793, 134217793, 134217797, 134217793, 66,
  206292713473, 206292713473, 134283265, 134283265, 134283265, 134283265, 134283265, 65537, 201457729, 134414402,
  131137, 131137, 131137, 131137, 133185, 65, 206292713473, 206225670146, 134283265, 134283265, 134283265, 134283265,
  134285313, 65537, 65, 65537, 65537, 65537, 65537, 68, 65537, 65537, 136380423, 134283265, 65537, 1, 134217793,
  134217793, 65, 134283265, 134283265, 65537, 65, 65537, 1, 134283265, 65537, 134283265, 65537, 2, 209514987521,
  137430021, 209513942017, 209517084673, 137432065, 137428993, 137428993, 137428998, 137431043, 209513938945,
  137428993, 284979737264129, 284842365485060, 209446895617, 209513938945, 209513938945, 209446895622, 209516036097,
  137428994, 209513938945, 209446895620, 137428994, 209513938945, 137428993, 68609, 206293762049, 134284293,
  206292716545, 206295859201, 134286337, 134283265, 134283265, 134283270, 134285315, 206292713473, 134283265,
  281681202380801, 281543830601732, 206225670145, 206292713473, 206292713473, 206225670150, 206294810625, 134283266,
  206292713473, 206225670148, 134283266, 206292713473, 134283265, 65537, 65, 65537, 65, 65537, 65537, 134217793,
  134283265, 134217793, 67108998, 65, 65537, 134217793, 134283265, 134283265, 134283265, 134283265, 134283265,
  67109000, 67109000, 67109000, 65537, 134217793, 134283265, 67108993, 67108993, 65537, 67108995, 67108995, 134283266,
  134283266, 65537, 67108993, 67108993, 67108993, 1, 137506062536, 67109000, 67109000, 137506062536, 137506062536,
  137506062536, 137506062536, 72, 137506062529, 67108993, 67108993, 137506062529, 137506062529, 137506062529,
  137506062529, 65, 65, 65537, 67108993, 65, 65537, 67108995, 134283265, 65537, 65537, 66, 65537, 67108998, 67108998,
  67108998, 67108995, 134283265, 65537, 67108993, 67108993, 65537, 67108993, 67108993, 1, 134283265, 134283266, 65537,
  134283265, 134283268, 65537, 68, 65537, 131137, 134283265, 1, 134217793, 65, 68920803461, 67108993, 1, 65,
  201457729, 201457729, 131137, 201457729, 131137, 65, 131137, 1, 67, 65, 131143, 65, 206292713473, 206292713473,
  206292713473, 134283265, 1, 131137, 65, 68719673473, 67108993, 131137, 65, 1, 131137, 131143, 66, 1, 68719673479,
  68719673479, 67108994, 67108994, 1, 65, 65, 206292713473, 206292713473, 134283265, 65537, 134283266, 134283265, 1,
  65, 65, 67108993, 65537, 65537, 3139, 65537, 5, 3276865, 3279937, 3143, 134283265, 134283265, 65537, 7, 71068287107,
  69206152, 206292713473, 134283265, 1, 131137, 65, 134283265, 134283269, 134283269, 65537, 134283269, 134283269,
  65541, 206292713477, 134283269, 134283265, 65538, 134283265, 134283269, 134283269, 65537, 134283269, 134283269,
  65541, 206292713477, 134283269, 134283265, 65538, 134283265, 134283269, 134283269, 65537, 134283269, 134283269,
  65541, 206292713477, 134283269, 134283265, 65538, 134283265, 134283269, 134283269, 65537, 134283269, 134283269,
  65541, 206292713477, 134283269, 134283265, 65538, 134217793, 65, 134283265, 65537, 206225670145, 134283266,
  208440197121, 136380417, 206225670145, 134283266, 1094, 136381441, 134283265, 134283269, 134283265, 134283269,
  134283265, 65537, 65, 65538, 1, 136380417, 136380417, 208440197121, 136380417, 67585, 135331841, 135331841,
  207366455297, 135331841, 66561, 206292713473, 134283265, 134283269, 134283269, 65541, 134283265, 134283265,
  206292713473, 134283265, 65537, 206292713473, 134283265, 134283269, 134283269, 65541, 134283265, 134283265,
  206292713473, 134283265, 65537, 65537, 65537, 135331841, 135331841, 136380417, 136380417, 134283269, 206292713473,
  134283265, 134283269, 206292713473, 134283265, 134283265, 134283265, 134283269, 206292713473, 134283265, 134283269,
  206292713473, 134283265, 134283265, 134283265, 65537, 66, 65539, 65538, 67585, 65541, 65537, 65541, 65537, 3,
  131140, 67, 4, 1179715, 1275199555, 1179715, 1091, 65, 67108993, 65537, 67108997, 1, 65, 65537, 209446895617,
  137428993, 68609, 137428993, 137432065, 68, 137506062536, 67109000, 1, 206225670146, 134283265, 134283271,
  134284289, 134283265, 65538, 1, 65537, 65538, 134283265, 70, 2, 65, 2118, 8, 65, 1, 66, 1, 70, 65, 65537, 134283265,
  65537, 134283265, 65537, 65537, 1, 202506305, 132165, 201460801, 204603457, 134209, 201457729, 131137, 201457729,
  201457729, 134414406, 203554881, 275012321345, 137640542276, 134414401, 131138, 201457729, 134414404, 131138,
  131137, 201457729, 131137, 65, 131137, 133187, 131142, 1, 201457733, 3279942, 1278345283, 275012321345, 201457729,
  201457729, 201460801, 131137, 278233546817, 3355639878, 2352087109, 2231366, 204603459, 1374523949121, 1275199553,
  1275199553, 1275202625, 1179713, 1377745174593, 2281898054, 3425828933, 1182790, 3425828931, 2474035576897,
  2348941377, 2348941377, 2348944449, 2228289, 2477256802369, 1208156230, 204603461, 134214, 2352087107,
  3573547204673, 3422683201, 3422683201, 3422686273, 3276865, 3576768430145, 134414406, 1278345285, 2283997251,
  2348941381, 203556929, 201457733, 201459777, 2351038533, 2228289, 2336730841157, 275081461825, 277159804994,
  203554881, 201459777, 133186, 2348943425, 203554885, 131137, 137707585605, 2474104717377, 2476183060546, 2351038529,
  2348943425, 2230338, 132162, 1180738, 201458753, 275080413249, 276086063171, 202506305, 1305804537923, 204606529,
  1276248131, 201458753, 1275200577, 1374592041025, 1375597690947, 1276248129, 206292910147, 1278348353, 202506307,
  1275200577, 1275199555, 1209205826, 201457731, 135464002, 275079364673, 134414401, 131141, 211244007292993,
  275079364673, 201457733, 1179714, 131138, 65, 131141, 1, 201457729, 201457729, 131137, 131138, 131137, 65, 1,
  201457729, 134414401, 201457733, 201459777, 275079364673, 275012321346, 201457729, 131138, 201460801, 134209,
  275012321347, 201457729, 201457731, 134414401, 201458753, 131138, 275012321345, 134414401, 275079364673, 201457729,
  131137, 201457733, 131137, 201457731, 131138, 134414401, 65, 131142, 65537, 67239940, 134283265, 65537, 67239937,
  134283265, 65537, 65537, 68920934402, 137640345601, 67239937, 68920934401, 137640345601, 68920934404, 137640345601,
  67239937, 68920934401, 137640345601, 67239937, 68920934401, 137640345601, 68920934401, 137640345601, 68920934403,
  137640345601, 68920934403, 137640345601, 70643823542273, 141012567654401, 211381244723201, 70643823542276,
  141012567654401, 211381244723201, 68920934401, 137640345601, 67239938, 68920934401, 137640345601, 68920934402,
  137640345601, 67239938, 67239937, 68920934401, 137640345601, 67239937, 67239937, 67239937, 67239941, 68923031555,
  137640345601, 67239941, 68923031554, 137640345601, 70644897284097, 141014715138049, 211381244723201, 68921982977,
  137640345601, 68923031553, 137640345601, 68924080129, 137640345601, 67239937, 70644897284099, 141014715138050,
  211381244723201, 68920934405, 137640345601, 68921982979, 137640345601, 68923031555, 137640345601, 68920934401,
  137640345601, 68923031553, 137640345601, 68920934403, 137640345601, 67239937, 70644897284099, 141012567654401,
  211381244723201, 70645971025921, 141012567654401, 211381244723201, 70643823542276, 141014715138049, 211381244723201,
  68923031553, 137640345601, 68920934401, 137640345601, 67239938, 67239938, 68920934401, 137640345601, 70644897284097,
  141012567654401, 211381244723201, 70643823542276, 141013641396225, 211381244723201, 68921982977, 137640345601,
  70643823542273, 141014715138050, 211381244723201, 68924080132, 137640345601, 68920934402, 137640345601, 68921982977,
  137640345601, 68920934401, 137640345601, 68921982978, 137640345601, 70645971025922, 141012567654401,
  211381244723201, 68920934401, 137640345601, 67239941, 72410812349808643, 144467306876043265, 216527099870117890,
  288582426165313537, 70644897284099, 141012567654401, 211381244723201, 68921982979, 137640345601, 67239937, 67239941,
  68920934401, 137640345601, 68920934404, 137640345601, 67239937, 67239938, 67239937, 68920934401, 137640345601,
  68920934401, 137640345601, 68920934403, 137640345601, 68920934403, 137640345601, 70643823542273, 141012567654401,
  211381244723201, 70643823542276, 141012567654401, 211381244723201, 68920934401, 137640345601, 67239938, 68920934404,
  137640345601, 67239937, 70643823542276, 141012567654401, 211381244723201, 68920934401, 137640345601, 68920934402,
  137640345601, 68920934401, 137640345601, 68920934402, 137640345601, 67239938, 70643823542275, 141012567654402,
  211381244723201, 68920934401, 137640345601, 70643823542273, 141012567654401, 211381244723201, 68920934401,
  137640345601, 67239937, 68920934403, 137640345601, 67239937, 68920934402, 137640345601, 67239938, 68920934401,
  137640345601, 67239941, 1, 206294810631, 281683416907783, 206294810625, 206294810631, 281681269424129, 206294810626,
  281682343165955, 206293762051, 281682343165953, 281682343165955, 206293762049, 281682343165955, 360570750970691587,
  281682343165955, 206293762051, 281682343165953, 206293762053, 134284293, 206293762049, 281683416907783,
  360571850482319367, 281683416907783, 281683416907783, 206292713479, 134285315, 206294810627, 281683416907783,
  206294810631, 281681269424129, 281681269424131, 206292713473, 206292713473, 206292713473, 206292713475,
  206292713475, 134283266, 281684490649601, 206295859201, 281684490649601, 281684490649601, 206295859201,
  206295859201, 206295859201, 206295859201, 206295859201, 281684490649601, 206295859201, 360572949993947137,
  360572949993947137, 281684490649601, 281684490649601, 281684490649601, 281684490649601, 281684490649601,
  206295859201, 281684490649601, 281684490649601, 206295859201, 281684490649601, 206295859201, 134286337,
  206292713480, 206292713480, 206292713480, 281681269424136, 206292713480, 206292713480, 281681269424136,
  281681269424136, 281681269424136, 281681269424136, 134283272, 206292713479, 206292713479, 206292713479,
  281681269424135, 206292713473, 281681269424129, 281681269424131, 206292713473, 281681269424131, 206292713473,
  134283265, 206292713475, 134283265, 206292713479, 281683416907777, 281683416907777, 281681269424129, 206292713473,
  281682343165953, 206293762049, 206292713473, 206292713479, 134283266, 281681269424135, 281681269424135,
  206292713474, 206292713474, 281681269424129, 281681269424129, 206292713473, 134283265, 206292713473, 206292713473,
  134283265, 206292713473, 134283267, 65538, 134283265, 1, 206292713477, 281681269424133, 206292713477, 208442294278,
  208442294275, 206294810630, 206294810627, 206295859201, 209513938952, 209513938952, 134283265, 209517084679,
  209517084680, 137432067, 284983025532936, 209517084680, 206292713473, 134283266, 207369601025, 208440197128,
  208440197128, 135331841, 208443342855, 208443342856, 136383491, 283883513905160, 208443342856, 207366455297,
  135331842, 208443342849, 207366455304, 207366455304, 136380417, 207369601031, 207369601032, 135334915,
  282784002277384, 207369601032, 208440197121, 136380418, 209517084673, 206292713480, 206292713480, 137428993,
  206295859207, 206295859208, 134286339, 281684490649608, 206295859208, 209513938945, 137428994, 207367503879,
  207367503879, 206293762055, 206293762055, 283882440163331, 208442294275, 208440197126, 208440197126, 136380421,
  206294810625, 206294810625, 281683416907777, 206294810625, 134285314, 281683416907779, 206294810627, 206292713478,
  206292713478, 134283269, 208442294273, 208442294273, 283882440163329, 208442294273, 136382466, 207366455303,
  282781854793735, 207367503879, 207366455303, 281682343165953, 206293762050, 206293762049, 206293762049,
  206292713479, 281682343165959, 206293762055, 206292713479, 282781854793729, 207367503874, 207367503873,
  207367503873, 135331847, 134284290, 134283271, 135332866, 206292713473, 281681269424129, 206292713473, 134283269,
  134283269, 65541, 1, 206292713473, 281681269424129, 206292713473, 281681269424129, 281681269424129, 206292713473,
  206292713473, 206292713473, 206292713473, 206292713473, 281681269424129, 206292713473, 360569651459063809,
  360569651459063809, 281681269424129, 281681269424129, 281681269424129, 281681269424129, 281681269424129,
  206292713473, 281681269424129, 281681269424129, 206292713473, 281681269424129, 206292713473, 134283265,
  206292713473, 206292713473, 281681269424129, 206292713473, 206292713473, 281681269424129, 281681269424129,
  281681269424129, 281681269424129, 134283265, 206292713473, 206292713473, 206292713473, 134283265, 65537, 134283266,
  1, 206292713473, 206292713480, 134283266, 281681269424129, 281681269424131, 206292713473, 206292713473,
  206292713473, 206292713475, 206292713475, 134283266, 206292713480, 206292713473, 206294810625, 206292713473,
  206292713473, 206293762049, 206292713473, 134283265, 281681269424129, 206292713474, 206292713473, 206292713479,
  281684490649601, 206295859201, 134286337, 206295859201, 206295859201, 281681269424136, 206292713480,
  281681269424135, 206292713473, 206292713479, 206292713479, 206292713473, 134283266, 134283266, 206292713473, 65537,
  134283267, 134283265, 1, 1, 70372235083905, 68722820229, 70372234038401, 70372237181057, 68722822273,
  70372234035329, 68722819201, 70372234035329, 70372234035329, 70372166992006, 70372236132481, 72061236371783809,
  72061099000004740, 70372166992001, 68722819202, 70372234035329, 70372166992004, 68722819202, 68722819201,
  70372234035329, 68722819201, 67112065, 68722819201, 68722821251, 68722819206, 1, 1, 70369012809857, 70369012809857,
  68719673473, 68719673474, 68719673473, 67108993, 1, 1, 70369013858433, 68719674501, 70369012812929, 70369015955585,
  68719676545, 70369012809857, 68719673473, 70369012809857, 70369012809857, 70368945766534, 70369014907009,
  72057937836900481, 72057800465121412, 70368945766529, 68719673474, 70369012809857, 70368945766532, 68719673474,
  68719673473, 70369012809857, 68719673473, 67108993, 68719673473, 68719675523, 68719673478, 1, 1, 1, 134283265, 1, 1,
  1, 1, 206292713473, 1, 1, 1, 1, 206292713473, 1, 1, 1, 1, 206292713473, 1, 1, 1, 134283265]

def dev_CCSD_SD_1_1 : List ITerm := [
  ⟨1, 1, [(chars! "g.bov", [6, 0, 3]), (chars! "t1", [1, 3]), (chars! "l1", [4, 1]), (chars! "du11", [6, 0, 4])]⟩,
  ⟨1, 1, [(chars! "g.bov", [6, 0, 3]), (chars! "t1", [0, 4]), (chars! "l1", [4, 1]), (chars! "du11", [6, 1, 3])]⟩,
  ⟨-1, 1, [(chars! "g.bov", [6, 0, 3]), (chars! "t1", [0, 3]), (chars! "l1", [4, 1]), (chars! "du11", [6, 1, 4])]⟩,
  ⟨-1, 1, [(chars! "G", [6]), (chars! "l1", [3, 0]), (chars! "du11", [6, 0, 3])]⟩,
  ⟨1, 1, [(chars! "g.bov", [6, 0, 3]), (chars! "t1", [0, 4]), (chars! "t1", [1, 3]), (chars! "l2", [4, 5, 1, 2]), (chars! "du11", [6, 2, 5])]⟩,
  ⟨1, 1, [(chars! "g.boo", [6, 0, 1]), (chars! "t1", [0, 3]), (chars! "l2", [3, 4, 1, 2]), (chars! "du11", [6, 2, 4])]⟩,
  ⟨-1, 1, [(chars! "g.bvv", [6, 3, 4]), (chars! "t1", [0, 4]), (chars! "l2", [3, 5, 0, 1]), (chars! "du11", [6, 1, 5])]⟩,
  ⟨-1, 1, [(chars! "g.bov", [6, 0, 3]), (chars! "t2", [0, 1, 3, 4]), (chars! "l2", [4, 5, 1, 2]), (chars! "du11", [6, 2, 5])]⟩,
  ⟨-1, 2, [(chars! "g.bov", [6, 0, 3]), (chars! "t2", [1, 2, 3, 4]), (chars! "l2", [4, 5, 1, 2]), (chars! "du11", [6, 0, 5])]⟩,
  ⟨-1, 2, [(chars! "g.bov", [6, 0, 3]), (chars! "t2", [0, 1, 4, 5]), (chars! "l2", [4, 5, 1, 2]), (chars! "du11", [6, 2, 3])]⟩,
  ⟨1, 1, [(chars! "g.bov", [6, 0, 3]), (chars! "s1", [6]), (chars! "ls1", [7]), (chars! "du11", [7, 0, 3])]⟩,
  ⟨1, 1, [(chars! "v.oovv", [0, 1, 3, 4]), (chars! "t1", [0, 3]), (chars! "ls1", [6]), (chars! "du11", [6, 1, 4])]⟩,
  ⟨1, 1, [(chars! "f.ov", [0, 3]), (chars! "ls1", [6]), (chars! "du11", [6, 0, 3])]⟩,
  ⟨-1, 1, [(chars! "v.oovv", [0, 1, 3, 4]), (chars! "u11", [6, 0, 3]), (chars! "ls2", [6, 7]), (chars! "du11", [7, 1, 4])]⟩,
  ⟨-1, 1, [(chars! "g.bov", [6, 0, 3]), (chars! "s2", [6, 7]), (chars! "ls2", [7, 14]), (chars! "du11", [14, 0, 3])]⟩,
  ⟨1, 1, [(chars! "g.boo", [6, 0, 1]), (chars! "s1", [6]), (chars! "lu11", [7, 3, 1]), (chars! "du11", [7, 0, 3])]⟩,
  ⟨1, 1, [(chars! "g.bov", [6, 0, 3]), (chars! "u11", [7, 0, 4]), (chars! "lu11", [7, 4, 1]), (chars! "du11", [6, 1, 3])]⟩,
  ⟨1, 1, [(chars! "g.bov", [6, 0, 3]), (chars! "u11", [6, 1, 3]), (chars! "lu11", [7, 4, 1]), (chars! "du11", [7, 0, 4])]⟩,
  ⟨-1, 1, [(chars! "v.ooov", [0, 1, 2, 3]), (chars! "t1", [0, 3]), (chars! "lu11", [6, 4, 2]), (chars! "du11", [6, 1, 4])]⟩,
  ⟨1, 2, [(chars! "v.oovv", [0, 1, 3, 4]), (chars! "t2", [0, 2, 3, 4]), (chars! "lu11", [6, 5, 2]), (chars! "du11", [6, 1, 5])]⟩,
  ⟨1, 1, [(chars! "g.bov", [6, 0, 3]), (chars! "t1", [1, 3]), (chars! "s1", [6]), (chars! "lu11", [7, 4, 1]), (chars! "du11", [7, 0, 4])]⟩,
  ⟨1, 1, [(chars! "v.oovv", [0, 1, 3, 4]), (chars! "t1", [0, 3]), (chars! "t1", [2, 4]), (chars! "lu11", [6, 5, 2]), (chars! "du11", [6, 1, 5])]⟩,
  ⟨1, 1, [(chars! "f.ov", [0, 3]), (chars! "t1", [1, 3]), (chars! "lu11", [6, 4, 1]), (chars! "du11", [6, 0, 4])]⟩,
  ⟨-1, 1, [(chars! "g.bov", [6, 0, 3]), (chars! "u11", [7, 0, 3]), (chars! "lu11", [7, 4, 1]), (chars! "du11", [6, 1, 4])]⟩,
  ⟨-1, 1, [(chars! "g.bov", [6, 0, 3]), (chars! "u11", [6, 1, 4]), (chars! "lu11", [7, 4, 1]), (chars! "du11", [7, 0, 3])]⟩,
  ⟨-1, 1, [(chars! "v.oovv", [0, 1, 3, 4]), (chars! "t2", [0, 2, 3, 5]), (chars! "lu11", [6, 5, 2]), (chars! "du11", [6, 1, 4])]⟩,
  ⟨1, 1, [(chars! "v.oovv", [0, 1, 3, 4]), (chars! "t1", [0, 3]), (chars! "t1", [1, 5]), (chars! "lu11", [6, 5, 2]), (chars! "du11", [6, 2, 4])]⟩,
  ⟨-1, 1, [(chars! "g.bvv", [6, 3, 4]), (chars! "s1", [6]), (chars! "lu11", [7, 3, 0]), (chars! "du11", [7, 0, 4])]⟩,
  ⟨-1, 1, [(chars! "v.ovvv", [0, 3, 4, 5]), (chars! "t1", [0, 4]), (chars! "lu11", [6, 3, 1]), (chars! "du11", [6, 1, 5])]⟩,
  ⟨1, 1, [(chars! "g.bov", [6, 0, 3]), (chars! "u11", [7, 1, 3]), (chars! "lu11", [7, 4, 1]), (chars! "du11", [6, 0, 4])]⟩,
  ⟨1, 1, [(chars! "g.bov", [6, 0, 3]), (chars! "u11", [6, 0, 4]), (chars! "lu11", [7, 4, 1]), (chars! "du11", [7, 1, 3])]⟩,
  ⟨1, 2, [(chars! "v.oovv", [0, 1, 3, 4]), (chars! "t2", [0, 1, 3, 5]), (chars! "lu11", [6, 5, 2]), (chars! "du11", [6, 2, 4])]⟩,
  ⟨1, 1, [(chars! "v.oovv", [0, 1, 3, 4]), (chars! "t1", [0, 5]), (chars! "t1", [2, 3]), (chars! "lu11", [6, 5, 2]), (chars! "du11", [6, 1, 4])]⟩,
  ⟨1, 1, [(chars! "g.bov", [6, 0, 3]), (chars! "t1", [0, 4]), (chars! "s1", [6]), (chars! "lu11", [7, 4, 1]), (chars! "du11", [7, 1, 3])]⟩,
  ⟨1, 1, [(chars! "f.ov", [0, 3]), (chars! "t1", [0, 4]), (chars! "lu11", [6, 4, 1]), (chars! "du11", [6, 1, 3])]⟩,
  ⟨1, 1, [(chars! "v.ooov", [0, 1, 2, 3]), (chars! "t1", [0, 4]), (chars! "lu11", [6, 4, 2]), (chars! "du11", [6, 1, 3])]⟩,
  ⟨1, 1, [(chars! "v.ovvv", [0, 3, 4, 5]), (chars! "t1", [1, 4]), (chars! "lu11", [6, 3, 1]), (chars! "du11", [6, 0, 5])]⟩]

def grad_CCSD_SD_1_1 : List Nat := [
  1, 1, 1, 1, 1, 1, 1, 1, 4, 65537, 65537, 134283265, 1, 65, 65537, 134283265, 65537, 65537, 1, 1, 1, 1, 1, 1, 1, 1,
  1, 1, 1, 1, 1, 1, 1, 1, 1, 1, 1, 1, 1, 1, 1, 1, 1, 1, 1, 1, 65, 65539, 131140, 134283265, 131140, 67239938,
  67239938, 7, 1179714, 1089, 65, 65537, 65537, 65537, 65, 65537, 65537, 134217797, 1, 67240961, 135331842, 66561,
  134285313, 136380417, 67585, 134217793, 134217793, 65, 134283265, 134283265, 65537, 67243009, 137428996, 68609,
  134283265, 134283268, 65537, 65, 65537, 1, 131137, 65, 134283265, 65537, 131137, 65, 65, 65537, 65537, 65537, 65537,
  65537, 67, 65537, 65537, 67241985, 136380423, 134284289, 135331841, 67, 65537, 67239937, 134284289, 1, 134217793,
  134217793, 65, 134283265, 134283265, 65537, 1, 134217793, 134217793, 134217797, 134217793, 206158561345,
  206158561345, 131137, 66, 134283265, 67239937, 134283271, 134283267, 206292713473, 206292713475, 134283265, 65538,
  65, 65537, 67239937, 134283265, 65537, 68, 65537, 65537, 65537, 1, 134217793, 134217793, 65, 65, 65537, 1,
  134283265, 65537, 135331841, 66561, 65, 134217795, 71, 65537, 65, 131140, 134283265, 131138, 67239938, 206292648001,
  206292648001, 134217793, 201457731, 206294810625, 208440197121, 136380417, 206225670146, 65, 65537, 65537, 65537, 1,
  201457729, 131137, 131137, 131137, 65, 206292713473, 134283265, 134283265, 134283265, 65537, 65, 65537, 67, 65537,
  206158561345, 131143, 134217797, 206292713473, 134283265, 134283265, 65537, 134283265, 206292713473, 134283265,
  134283265, 134283265, 65537, 206292713473, 134283265, 134283265, 65537, 134283265, 206292713473, 134283265,
  134283265, 134283265, 65537, 206292713473, 134283265, 134283265, 65537, 134283265, 206292713473, 134283265,
  134283265, 134283265, 65537, 206292713473, 134283265, 134283265, 65537, 134283265, 206292713473, 134283265,
  134283265, 134283265, 65537, 206292713473, 134283265, 134283265, 68, 131140, 134283265, 65537, 65537, 135331842,
  67240961, 136380417, 134285313, 134283265, 206292713473, 206292713473, 134283265, 206292713473, 134283265,
  134283265, 134283265, 134283265, 206292713473, 206292713473, 134283265, 206292713473, 134283265, 134283265,
  134283265, 65537, 65, 134217795, 134283265, 70, 67239941, 134283265, 134283265, 134283265, 134283265, 134283265,
  65537, 69, 65538, 65, 131137, 201457735, 137640345602, 131141, 135331841, 134283265, 134283265, 67239939, 134283265,
  2, 137642442753, 208440197123, 136380417, 67241985, 67585, 206293762049, 207366455297, 135331841, 134284289, 66561,
  134283265, 134283265, 65537, 206292713473, 206292713473, 206292713473, 134283265, 134283265, 65537, 134283265,
  134283265, 65537, 206292713473, 206292713473, 206292713473, 134283265, 134283265, 65537, 65537, 67585, 67585, 65,
  67587, 67587, 4, 1208156226, 1181761, 1094, 4, 134414404, 136314947, 72, 6, 281475178168385, 206292648001,
  134217793, 66, 68, 65537, 134217793, 65537, 65537, 65537, 65537, 1, 134218817, 1089, 134283265, 65537, 65537,
  134283265, 65537, 65537, 134283265, 65537, 134283265, 65537, 65, 65537, 1, 134217793, 134217793, 65, 67243009,
  67243009, 68609, 1, 206292713479, 134283265, 134283266, 67239937, 134283271, 65537, 1, 134283265, 65537, 1, 65, 67,
  206158561345, 206158561345, 131137, 206292648001, 134217793, 65, 134217793, 134217797, 1, 65, 68, 65, 134217793,
  134217793, 65, 67, 71, 2, 65537, 72, 8, 2115, 65, 1, 65, 65, 71, 1, 1, 1, 1, 1, 1, 1, 1, 1, 1, 1, 1, 1, 1, 1, 1, 1,
  1, 1, 1, 1, 1, 1, 1, 1, 1, 1, 1, 1, 1, 1, 1, 1, 65537, 134283265, 135266369, 135266369, 207299411974, 135266369,
  135267393, 134283265, 136380418, 134283265, 134283270, 136380422, 67, 134283265, 65537, 65537, 65537, 67108993,
  134283266, 65537, 134283266, 65, 65537, 65537, 65537, 67108993, 65, 65537, 65537, 65537, 68920803457, 65, 67587,
  209379721345, 136382465, 67587, 208440197126, 136380422, 134283270, 68, 134283269, 65, 65537, 65537, 68920803461,
  66561, 65537, 65537, 134283265, 65, 65539, 65539, 68920803457, 206292713473, 131139, 134283265, 65539, 7, 3276868,
  3142, 1179714, 1089, 134283265, 65537, 67, 65537, 65537, 65537, 134217793, 134283265, 131137, 208440197127,
  206292713473, 1, 67243009, 137428994, 68609, 67243009, 137428996, 68609, 134283265, 134283265, 65537, 134217793,
  134217793, 65, 134283265, 134283265, 65537, 131137, 131141, 66, 65, 67587, 67587, 3, 134217795, 67, 4, 136314947,
  134414404, 131139, 68, 1, 131138, 65, 2, 2113, 3425828929, 3279937, 1275200577, 1276248129, 1180737, 1275199553,
  1305804537921, 1208156225, 1179713, 1275199553, 1179713, 1089, 1179713, 67, 206292713480, 206292713478,
  281681269424134, 206292713478, 134283270, 7, 67, 2115, 2228293, 65, 65537, 65537, 65537, 71, 65537, 2115, 65537, 65,
  65537, 65537, 1, 131137, 65, 134283265, 65537, 65, 65537, 65537, 65537, 65537, 65537, 67, 65537, 65537,
  208373153794, 136380417, 207366455297, 135331841, 2113, 65537, 134285313, 135331841, 134283269, 134283265,
  134283269, 134283265, 1, 206158561345, 206158561345, 131137, 134217793, 134217793, 134217797, 134217793, 66,
  206292713473, 206292713473, 134283265, 134283265, 134283265, 134283265, 134283265, 65537, 201457729, 134414402,
  131137, 131137, 131137, 131137, 133185, 65, 65, 65537, 65537, 65537, 68, 65537, 65537, 136380423, 134283265, 1,
  134217793, 134217793, 65, 134283265, 134283265, 65537, 65, 65537, 65537, 1, 134283265, 65537, 134283265, 65537, 2,
  209514987521, 137430021, 209513942017, 209517084673, 137432065, 137428993, 137428993, 137428998, 137431043,
  209513938945, 137428993, 284979737264129, 284842365485060, 209446895617, 209513938945, 209513938945, 209446895622,
  209516036097, 137428994, 209513938945, 209446895620, 137428994, 209513938945, 137428993, 68609, 206293762049,
  134284293, 206292716545, 206295859201, 134286337, 134283265, 134283265, 134283270, 134285315, 206292713473,
  134283265, 281681202380801, 281543830601732, 206225670145, 206292713473, 206292713473, 206225670150, 206294810625,
  134283266, 206292713473, 206225670148, 134283266, 206292713473, 134283265, 65537, 65, 65537, 65, 65537, 65537,
  134217793, 134283265, 65, 65537, 134283265, 134217793, 134283265, 134283265, 134283265, 134283265, 65537, 67109000,
  67109000, 67109000, 65537, 134217793, 134283265, 65537, 67108995, 67108995, 134283266, 134283266, 65537, 67108993,
  67108993, 1, 137506062536, 67109000, 67109000, 137506062536, 137506062536, 137506062536, 137506062536, 72,
  137506062529, 67108993, 67108993, 137506062529, 137506062529, 137506062529, 137506062529, 65, 65, 65537, 67108993,
  65, 65537, 67108995, 134283265, 65537, 66, 65537, 67108998, 67108998, 67108998, 67108993, 134283265, 65537,
  67108993, 67108993, 1, 134283265, 134283266, 65537, 134283265, 134283268, 65537, 134283265, 134283265, 65537, 68,
  65537, 65537, 131137, 134283265, 1, 1089, 134217793, 65, 134217793, 1, 1089, 65, 201457729, 201457729, 131137,
  201457729, 131137, 202506305, 65, 132161, 131137, 1, 1089, 67, 65, 132161, 131143, 65537, 65537, 134283265,
  134283265, 65537, 134283265, 134283265, 134283265, 134283265, 65, 206292713473, 206292713473, 206292713473,
  206292713473, 134283265, 1, 131137, 65, 134283265, 65537, 206292713473, 134283265, 1, 68920803461, 67108993, 1,
  131137, 131143, 66, 65, 65537, 65, 65537, 1, 135331841, 66561, 134283265, 65537, 131137, 65, 1, 206292713473,
  206292713473, 134283265, 134283266, 134283265, 206293762049, 134284289, 65537, 207366455297, 207366455297,
  135331841, 135331842, 135331841, 207367503873, 135332865, 66561, 1, 68719673479, 68719673479, 67108994, 67108994, 1,
  65, 65, 65, 67108993, 67108993, 66, 65539, 65538, 67585, 65541, 65537, 65541, 65537, 65, 65538, 1, 134217793, 65,
  134283265, 65537, 131137, 65, 206225670145, 134283266, 208440197121, 136380417, 1, 136380417, 136380417,
  208440197121, 136380417, 67585, 135331841, 135331841, 207366455297, 135331841, 66561, 206292713473, 134283265,
  134283269, 134283269, 65541, 134283265, 134283265, 206292713473, 134283265, 65537, 206292713473, 134283265,
  134283269, 134283269, 65541, 134283265, 134283265, 206292713473, 134283265, 65537, 65537, 65537, 3137, 65537, 5,
  3276865, 3279937, 3143, 134283265, 134283265, 65537, 134283269, 206292713477, 134283269, 134283269, 134283265,
  134283265, 134283265, 65538, 65537, 134283269, 134283269, 65541, 134283269, 206292713477, 134283269, 134283269,
  134283265, 134283265, 134283265, 65538, 65537, 134283269, 134283269, 65541, 134283269, 206292713477, 134283269,
  134283269, 134283265, 134283265, 134283265, 65538, 65537, 134283269, 134283269, 65541, 134283269, 206292713477,
  134283269, 134283269, 134283265, 134283265, 134283265, 65538, 65537, 134283269, 134283269, 65541, 1093, 136381441,
  134283265, 134283269, 134283265, 134283269, 134283265, 65537, 65537, 135331841, 135331841, 136380417, 136380417,
  134283269, 206292713473, 134283265, 134283269, 206292713473, 134283265, 134283265, 134283265, 134283269,
  206292713473, 134283265, 134283269, 206292713473, 134283265, 134283265, 134283265, 3, 131140, 67, 4, 1179715,
  1275199555, 1179715, 1091, 66, 65537, 65537, 131137, 134283265, 65, 65537, 65537, 65537, 1, 134414401, 131137,
  131137, 134209, 65, 206292713473, 134283265, 134283265, 134283265, 65537, 134283265, 65537, 65537, 134283265,
  206292713473, 134283265, 134283265, 134283265, 65537, 134283265, 65537, 65537, 134283265, 206292713473, 134283265,
  134283265, 134283265, 65537, 2, 65, 70, 2118, 8, 66, 65, 1, 65, 65538, 65537, 65, 1, 65538, 65, 65537, 70, 65537,
  134283265, 65537, 134283265, 65537, 65537, 1, 202506305, 132165, 201460801, 204603457, 134209, 201457729, 131137,
  201457729, 201457729, 134414406, 203554881, 275012321345, 137640542276, 134414401, 131138, 201457729, 134414404,
  131138, 201457729, 131137, 131137, 133187, 131142, 65, 131137, 1, 201457733, 3279942, 1278345283, 275012321345,
  201457729, 201457729, 201460801, 131137, 278233546817, 3355639878, 2352087109, 2231366, 204603459, 1374523949121,
  1275199553, 1275199553, 1275202625, 1179713, 1377745174593, 2281898054, 3425828933, 1182790, 3425828931,
  2474035576897, 2348941377, 2348941377, 2348944449, 2228289, 2477256802369, 1208156230, 204603461, 134214,
  2352087107, 3573547204673, 3422683201, 3422683201, 3422686273, 3276865, 3576768430145, 134414406, 1278345285,
  201458753, 275080413249, 276086063171, 202506305, 1305804537923, 204606529, 1276248131, 201458753, 1275200577,
  1374592041025, 1375597690947, 1276248129, 206292910147, 1278348353, 202506307, 1275200577, 1275199555, 1209205826,
  201457731, 135464002, 2283997251, 2348941381, 203556929, 201457733, 201459777, 2351038533, 2228289, 2336730841157,
  275081461825, 277159804994, 203554881, 201459777, 133186, 2348943425, 203554885, 131137, 137707585605,
  2474104717377, 2476183060546, 2351038529, 2348943425, 2230338, 132162, 1180738, 275079364673, 134414401, 131141,
  211244007292993, 275079364673, 201457733, 1179714, 131138, 65, 131141, 1, 201457729, 201457729, 131137, 202506305,
  132161, 131138, 65, 131137, 1, 201457729, 131137, 201458753, 1180738, 1179713, 1275200577, 132162, 1, 201457729,
  134414401, 201457733, 201459777, 275079364673, 275012321346, 201457729, 131138, 134414401, 131138, 201460801,
  202509377, 134209, 275012321347, 201457729, 201457731, 134414401, 201458753, 131138, 275012321345, 276086063169,
  134414401, 275079364673, 201457729, 131137, 202506305, 201457733, 131137, 202506305, 201457731, 132161, 131142, 65,
  65537, 67239940, 134283265, 65537, 67239937, 134283265, 65537, 65537, 68920934402, 137640345601, 67239937,
  68920934401, 137640345601, 68920934404, 137640345601, 67239937, 68920934401, 137640345601, 67239937, 68920934401,
  137640345601, 68920934401, 137640345601, 68920934403, 137640345601, 68920934403, 137640345601, 70643823542273,
  141012567654401, 211381244723201, 70643823542276, 141012567654401, 211381244723201, 68920934401, 137640345601,
  67239938, 68920934401, 137640345601, 68920934402, 137640345601, 67239938, 68920934401, 137640345601, 67239937,
  67239937, 67239937, 67239941, 67239937, 68923031555, 137640345601, 67239941, 68923031554, 137640345601,
  70644897284097, 141014715138049, 211381244723201, 68921982977, 137640345601, 68923031553, 137640345601, 68924080129,
  137640345601, 67239937, 70644897284099, 141014715138050, 211381244723201, 68920934405, 137640345601, 68921982979,
  137640345601, 68920934401, 137640345601, 70644897284097, 141012567654401, 211381244723201, 70643823542276,
  141013641396225, 211381244723201, 68921982977, 137640345601, 70643823542273, 141014715138050, 211381244723201,
  68924080132, 137640345601, 68920934402, 137640345601, 68921982977, 137640345601, 68920934401, 137640345601,
  68921982978, 137640345601, 68923031555, 137640345601, 68920934401, 137640345601, 68923031553, 137640345601,
  68920934403, 137640345601, 67239937, 70644897284099, 141012567654401, 211381244723201, 70645971025921,
  141012567654401, 211381244723201, 70643823542276, 141014715138049, 211381244723201, 68923031553, 137640345601,
  68920934401, 137640345601, 67239938, 67239938, 70645971025922, 141012567654401, 211381244723201, 68920934401,
  137640345601, 67239941, 72410812349808643, 144467306876043265, 216527099870117890, 288582426165313537,
  70644897284099, 141012567654401, 211381244723201, 68921982979, 137640345601, 67239937, 67239941, 68920934401,
  137640345601, 68920934404, 137640345601, 67239937, 68920934401, 137640345601, 67239937, 67239938, 67239937,
  68921982980, 137640345601, 67239937, 68921982977, 137640345601, 67239938, 68920934401, 137640345601, 68920934401,
  137640345601, 68920934403, 137640345601, 68920934403, 137640345601, 70643823542273, 141012567654401,
  211381244723201, 70643823542276, 141012567654401, 211381244723201, 68920934401, 137640345601, 67239938, 68920934401,
  137640345601, 67239938, 68920934404, 137640345601, 68920934401, 137640345601, 67239937, 70643823542276,
  141012567654401, 211381244723201, 68920934401, 137640345601, 68920934402, 137640345601, 68920934401, 137640345601,
  68920934402, 137640345601, 67239938, 70643823542275, 141012567654402, 211381244723201, 70643823542273,
  141012567654401, 211381244723201, 68920934401, 137640345601, 70643823542273, 141012567654401, 211381244723201,
  68920934401, 137640345601, 67239937, 68920934401, 137640345601, 68920934403, 137640345601, 67239937, 68920934401,
  137640345601, 68920934402, 137640345601, 67239937, 67239941, 1, 281683416907783, 206294810631, 206294810626,
  281681269424129, 206294810631, 206294810631, 281683416907783, 206294810625, 281682343165955, 206293762051,
  281682343165953, 281682343165955, 206293762049, 281682343165955, 360570750970691587, 281682343165955, 206293762051,
  281682343165953, 206293762053, 134284293, 206293762049, 281683416907783, 281683416907783, 360571850482319367,
  281683416907783, 206292713479, 134285315, 206294810627, 281681269424129, 281681269424131, 206292713473,
  206292713473, 206292713473, 206292713475, 206292713475, 134283266, 281684490649601, 206295859201, 281684490649601,
  281684490649601, 206295859201, 206295859201, 206295859201, 206295859201, 206295859201, 281684490649601,
  206295859201, 360572949993947137, 360572949993947137, 281684490649601, 281684490649601, 281684490649601,
  281684490649601, 281684490649601, 206295859201, 281684490649601, 281684490649601, 206295859201, 281684490649601,
  206295859201, 134286337, 206292713480, 206292713480, 206292713480, 281681269424136, 206292713480, 206292713480,
  281681269424136, 281681269424136, 281681269424136, 281681269424136, 134283272, 206292713479, 206292713479,
  206292713479, 281681269424129, 281681269424131, 206292713473, 281681269424131, 206292713473, 281681269424129,
  134283265, 206292713473, 206292713475, 134283265, 206292713473, 206292713479, 281683416907777, 281681269424129,
  281683416907777, 281681269424129, 206292713473, 281682343165953, 206293762049, 281681269424135, 206292713473,
  206292713473, 206292713479, 134283266, 281681269424129, 281681269424129, 206292713473, 206292713473, 206292713473,
  281681269424129, 206292713473, 134283265, 281681269424135, 281681269424135, 206292713474, 206292713474, 134283265,
  206292713473, 206292713473, 65538, 134283265, 134283267, 1, 206292713477, 281681269424133, 206292713477,
  208442294278, 208442294275, 206294810630, 206294810627, 135331847, 134284290, 134283271, 135332866, 283882440163331,
  208442294275, 208440197126, 208440197126, 136380421, 206294810625, 206294810625, 281683416907777, 206294810625,
  134285314, 281683416907779, 206294810627, 206292713478, 206292713478, 134283269, 208442294273, 208442294273,
  283882440163329, 208442294273, 136382466, 209517084680, 284983025532936, 209513938952, 209513938952, 206295859201,
  206292713473, 206292713473, 134283266, 134283265, 209517084679, 209517084680, 137432067, 208443342856,
  283883513905160, 208440197128, 208440197128, 207369601025, 207366455297, 207366455297, 135331842, 135331841,
  208443342855, 208443342856, 136383491, 207369601032, 282784002277384, 207366455304, 207366455304, 208443342849,
  208440197121, 208440197121, 136380418, 136380417, 207369601031, 207369601032, 135334915, 206295859208,
  281684490649608, 206292713480, 206292713480, 209517084673, 209513938945, 209513938945, 137428994, 137428993,
  206295859207, 206295859208, 134286339, 207367503879, 207367503879, 206293762055, 206293762055, 207366455303,
  282781854793735, 207367503879, 207366455303, 281682343165953, 206293762050, 206293762049, 206293762049,
  206292713479, 281682343165959, 206293762055, 206292713479, 282781854793729, 207367503874, 207367503873,
  207367503873, 206292713473, 281681269424129, 206292713473, 134283269, 134283269, 65541, 1, 206292713473,
  281681269424129, 206292713473, 281681269424129, 281681269424129, 206292713473, 206292713473, 206292713473,
  206292713473, 206292713473, 281681269424129, 206292713473, 360569651459063809, 360569651459063809, 281681269424129,
  281681269424129, 281681269424129, 281681269424129, 281681269424129, 206292713473, 281681269424129, 281681269424129,
  206292713473, 281681269424129, 206292713473, 134283265, 206292713473, 206292713473, 281681269424129, 206292713473,
  206292713473, 281681269424129, 281681269424129, 281681269424129, 281681269424129, 134283265, 206292713473,
  206292713473, 206292713473, 281682343165953, 281682343165953, 206293762049, 206293762049, 206293762049,
  281682343165953, 206293762049, 134284289, 134283266, 134283265, 65537, 1, 206292713473, 134283265, 135332866,
  206293762049, 281681269424129, 206292713473, 206292713473, 206292713473, 134283265, 207366455297, 135331841,
  134284290, 207367503873, 282780781051905, 207366455297, 207366455297, 207366455297, 135331841, 1, 206292713473,
  206292713480, 134283266, 134284289, 134283266, 134283266, 134283265, 65537, 134283266, 134283265, 134286337,
  134283267, 1, 1, 70372235083905, 68722820229, 70372234038401, 70372237181057, 68722822273, 70372234035329,
  68722819201, 70372234035329, 70372234035329, 70372166992006, 70372236132481, 72061236371783809, 72061099000004740,
  70372166992001, 68722819202, 70372234035329, 70372166992004, 68722819202, 70372234035329, 68722819201, 68722819201,
  68722821251, 68722819206, 67112065, 68722819201, 1, 1, 70369012809857, 70369012809857, 68719673473, 70369013858433,
  68719674497, 68719673474, 67108993, 68719673473, 1, 1, 70369013858433, 68719674501, 70369012812929, 70369015955585,
  68719676545, 70369012809857, 68719673473, 70369012809857, 70369012809857, 70368945766534, 70369014907009,
  72057937836900481, 72057800465121412, 70368945766529, 68719673474, 70369012809857, 70368945766532, 68719673474,
  70369012809857, 68719673473, 68719673473, 68719675523, 68719673478, 67108993, 68719673473, 1, 1, 70370086551681,
  70370086551681, 68720722049, 70370087600257, 68720723073, 68720722050, 67110017, 68720722049, 1, 1, 1, 1,
  206292713473, 1, 1, 1, 1, 206292713473, 1, 1, 1, 1, 206292713473, 1, 1, 1, 134283265, 1, 1, 1, 1, 1,
  281681269424129, 1, 1, 1, 1, 206292713473, 1, 1, 1, 1, 206292713473, 1, 1, 1, 1, 206292713473, 1, 1, 1, 1,
  206292713473, 1, 1, 1, 1, 206292713473, 1, 1, 1, 1, 206292713473, 1, 1, 1, 1, 206292713473, 1, 1, 1, 134283265, 1,
  1, 1, 1, 206292713473, 1, 1, 1, 1, 206292713473, 1, 1, 1, 1, 206292713473, 1, 1, 1, 1, 206292713473, 1, 1, 1, 1,
  206292713473, 1, 1, 1, 1, 206292713473, 1, 1, 1, 1, 206292713473, 1, 1, 1, 1, 1, 281681269424129, 1, 1, 1, 1, 1,
  281681269424129, 1, 1, 1, 1, 206292713473, 1, 1, 1, 1, 206292713473, 1, 1, 1, 1, 206292713473, 1, 1, 1, 1,
  206292713473, 1, 1, 1, 1, 1, 281681269424129, 1, 1, 1, 1, 206292713473, 1, 1, 1, 1, 206292713473, 1, 1, 1, 1,
  206292713473, 1, 1, 1, 1, 206292713473, 1, 1, 1, 1, 206292713473, 1, 1, 1, 1, 1, 281681269424129, 1, 1, 1, 1, 1,
  281681269424129, 1, 1, 1, 1, 206292713473, 1, 1, 1, 1, 206292713473, 1, 1, 1, 1, 206292713473]

def dev_CCSD_SD_1_2 : List ITerm := [
  ⟨1, 1, [(chars! "g.bov", [6, 0, 3]), (chars! "t1", [1, 3]), (chars! "l1", [4, 1]), (chars! "du11", [6, 0, 4])]⟩,
  ⟨1, 1, [(chars! "g.bov", [6, 0, 3]), (chars! "t1", [0, 4]), (chars! "l1", [4, 1]), (chars! "du11", [6, 1, 3])]⟩,
  ⟨-1, 1, [(chars! "g.bov", [6, 0, 3]), (chars! "t1", [0, 3]), (chars! "l1", [4, 1]), (chars! "du11", [6, 1, 4])]⟩,
  ⟨-1, 1, [(chars! "G", [6]), (chars! "l1", [3, 0]), (chars! "du11", [6, 0, 3])]⟩,
  ⟨-1, 2, [(chars! "g.bov", [6, 0, 3]), (chars! "t2", [0, 1, 4, 5]), (chars! "l2", [4, 5, 1, 2]), (chars! "du11", [6, 2, 3])]⟩,
  ⟨1, 1, [(chars! "g.bov", [6, 0, 3]), (chars! "t1", [0, 4]), (chars! "t1", [1, 3]), (chars! "l2", [4, 5, 1, 2]), (chars! "du11", [6, 2, 5])]⟩,
  ⟨1, 1, [(chars! "g.boo", [6, 0, 1]), (chars! "t1", [0, 3]), (chars! "l2", [3, 4, 1, 2]), (chars! "du11", [6, 2, 4])]⟩,
  ⟨-1, 1, [(chars! "g.bvv", [6, 3, 4]), (chars! "t1", [0, 4]), (chars! "l2", [3, 5, 0, 1]), (chars! "du11", [6, 1, 5])]⟩,
  ⟨-1, 1, [(chars! "g.bov", [6, 0, 3]), (chars! "t2", [0, 1, 3, 4]), (chars! "l2", [4, 5, 1, 2]), (chars! "du11", [6, 2, 5])]⟩,
  ⟨-1, 2, [(chars! "g.bov", [6, 0, 3]), (chars! "t2", [1, 2, 3, 4]), (chars! "l2", [4, 5, 1, 2]), (chars! "du11", [6, 0, 5])]⟩,
  ⟨1, 1, [(chars! "g.bov", [6, 0, 3]), (chars! "s1", [6]), (chars! "ls1", [7]), (chars! "du11", [7, 0, 3])]⟩,
  ⟨1, 1, [(chars! "v.oovv", [0, 1, 3, 4]), (chars! "t1", [0, 3]), (chars! "ls1", [6]), (chars! "du11", [6, 1, 4])]⟩,
  ⟨1, 1, [(chars! "f.ov", [0, 3]), (chars! "ls1", [6]), (chars! "du11", [6, 0, 3])]⟩,
  ⟨-1, 1, [(chars! "g.bov", [6, 0, 3]), (chars! "ls1", [7]), (chars! "du12", [6, 7, 0, 3])]⟩,
  ⟨1, 2, [(chars! "g.bov", [6, 0, 3]), (chars! "s1", [6]), (chars! "ls2", [7, 14]), (chars! "du12", [7, 14, 0, 3])]⟩,
  ⟨1, 2, [(chars! "v.oovv", [0, 1, 3, 4]), (chars! "t1", [0, 3]), (chars! "ls2", [6, 7]), (chars! "du12", [6, 7, 1, 4])]⟩,
  ⟨1, 2, [(chars! "f.ov", [0, 3]), (chars! "ls2", [6, 7]), (chars! "du12", [6, 7, 0, 3])]⟩,
  ⟨-1, 1, [(chars! "v.oovv", [0, 1, 3, 4]), (chars! "u11", [6, 0, 3]), (chars! "ls2", [6, 7]), (chars! "du11", [7, 1, 4])]⟩,
  ⟨-1, 1, [(chars! "g.bov", [6, 0, 3]), (chars! "s2", [6, 7]), (chars! "ls2", [7, 14]), (chars! "du11", [14, 0, 3])]⟩,
  ⟨-1, 1, [(chars! "g.bov", [6, 0, 3]), (chars! "t1", [0, 3]), (chars! "lu11", [7, 4, 1]), (chars! "du12", [6, 7, 1, 4])]⟩,
  ⟨-1, 1, [(chars! "G", [6]), (chars! "lu11", [7, 3, 0]), (chars! "du12", [6, 7, 0, 3])]⟩,
  ⟨-1, 1, [(chars! "g.bov", [6, 0, 3]), (chars! "u11", [7, 0, 3]), (chars! "lu11", [7, 4, 1]), (chars! "du11", [6, 1, 4])]⟩,
  ⟨-1, 1, [(chars! "g.bov", [6, 0, 3]), (chars! "u11", [6, 1, 4]), (chars! "lu11", [7, 4, 1]), (chars! "du11", [7, 0, 3])]⟩,
  ⟨-1, 1, [(chars! "v.oovv", [0, 1, 3, 4]), (chars! "t2", [0, 2, 3, 5]), (chars! "lu11", [6, 5, 2]), (chars! "du11", [6, 1, 4])]⟩,
  ⟨1, 1, [(chars! "v.oovv", [0, 1, 3, 4]), (chars! "t1", [0, 3]), (chars! "t1", [1, 5]), (chars! "lu11", [6, 5, 2]), (chars! "du11", [6, 2, 4])]⟩,
  ⟨-1, 1, [(chars! "g.bvv", [6, 3, 4]), (chars! "s1", [6]), (chars! "lu11", [7, 3, 0]), (chars! "du11", [7, 0, 4])]⟩,
  ⟨-1, 1, [(chars! "v.ovvv", [0, 3, 4, 5]), (chars! "t1", [0, 4]), (chars! "lu11", [6, 3, 1]), (chars! "du11", [6, 1, 5])]⟩,
  ⟨1, 1, [(chars! "g.bov", [6, 0, 3]), (chars! "u11", [7, 1, 3]), (chars! "lu11", [7, 4, 1]), (chars! "du11", [6, 0, 4])]⟩,
  ⟨1, 1, [(chars! "g.bov", [6, 0, 3]), (chars! "u11", [6, 0, 4]), (chars! "lu11", [7, 4, 1]), (chars! "du11", [7, 1, 3])]⟩,
  ⟨1, 2, [(chars! "v.oovv", [0, 1, 3, 4]), (chars! "t2", [0, 1, 3, 5]), (chars! "lu11", [6, 5, 2]), (chars! "du11", [6, 2, 4])]⟩,
  ⟨1, 1, [(chars! "v.oovv", [0, 1, 3, 4]), (chars! "t1", [0, 5]), (chars! "t1", [2, 3]), (chars! "lu11", [6, 5, 2]), (chars! "du11", [6, 1, 4])]⟩,
  ⟨1, 1, [(chars! "v.ooov", [0, 1, 2, 3]), (chars! "t1", [0, 4]), (chars! "lu11", [6, 4, 2]), (chars! "du11", [6, 1, 3])]⟩,
  ⟨1, 1, [(chars! "g.bov", [6, 0, 3]), (chars! "t1", [0, 4]), (chars! "s1", [6]), (chars! "lu11", [7, 4, 1]), (chars! "du11", [7, 1, 3])]⟩,
  ⟨1, 1, [(chars! "f.ov", [0, 3]), (chars! "t1", [0, 4]), (chars! "lu11", [6, 4, 1]), (chars! "du11", [6, 1, 3])]⟩,
  ⟨1, 1, [(chars! "g.boo", [6, 0, 1]), (chars! "s1", [6]), (chars! "lu11", [7, 3, 1]), (chars! "du11", [7, 0, 3])]⟩,
  ⟨1, 1, [(chars! "g.bov", [6, 0, 3]), (chars! "u11", [7, 0, 4]), (chars! "lu11", [7, 4, 1]), (chars! "du11", [6, 1, 3])]⟩,
  ⟨1, 1, [(chars! "g.bov", [6, 0, 3]), (chars! "u11", [6, 1, 3]), (chars! "lu11", [7, 4, 1]), (chars! "du11", [7, 0, 4])]⟩,
  ⟨-1, 1, [(chars! "v.ooov", [0, 1, 2, 3]), (chars! "t1", [0, 3]), (chars! "lu11", [6, 4, 2]), (chars! "du11", [6, 1, 4])]⟩,
  ⟨1, 2, [(chars! "v.oovv", [0, 1, 3, 4]), (chars! "t2", [0, 2, 3, 4]), (chars! "lu11", [6, 5, 2]), (chars! "du11", [6, 1, 5])]⟩,
  ⟨1, 1, [(chars! "g.bov", [6, 0, 3]), (chars! "t1", [1, 3]), (chars! "s1", [6]), (chars! "lu11", [7, 4, 1]), (chars! "du11", [7, 0, 4])]⟩,
  ⟨1, 1, [(chars! "v.oovv", [0, 1, 3, 4]), (chars! "t1", [0, 3]), (chars! "t1", [2, 4]), (chars! "lu11", [6, 5, 2]), (chars! "du11", [6, 1, 5])]⟩,
  ⟨1, 1, [(chars! "f.ov", [0, 3]), (chars! "t1", [1, 3]), (chars! "lu11", [6, 4, 1]), (chars! "du11", [6, 0, 4])]⟩,
  ⟨1, 1, [(chars! "v.ovvv", [0, 3, 4, 5]), (chars! "t1", [1, 4]), (chars! "lu11", [6, 3, 1]), (chars! "du11", [6, 0, 5])]⟩,
  ⟨1, 2, [(chars! "g.bov", [6, 0, 3]), (chars! "u12", [7, 14, 0, 4]), (chars! "lu12", [7, 14, 4, 1]), (chars! "du11", [6, 1, 3])]⟩,
  ⟨-1, 2, [(chars! "g.bov", [6, 0, 3]), (chars! "u12", [7, 14, 0, 3]), (chars! "lu12", [7, 14, 4, 1]), (chars! "du11", [6, 1, 4])]⟩,
  ⟨-1, 1, [(chars! "g.bov", [6, 0, 3]), (chars! "u12", [6, 7, 1, 4]), (chars! "lu12", [7, 14, 4, 1]), (chars! "du11", [14, 0, 3])]⟩,
  ⟨1, 1, [(chars! "v.oovv", [0, 1, 3, 4]), (chars! "t1", [2, 3]), (chars! "u11", [6, 0, 5]), (chars! "lu12", [6, 7, 5, 2]), (chars! "du11", [7, 1, 4])]⟩,
  ⟨-1, 1, [(chars! "v.oovv", [0, 1, 3, 4]), (chars! "t1", [2, 3]), (chars! "u11", [6, 0, 4]), (chars! "lu12", [6, 7, 5, 2]), (chars! "du11", [7, 1, 5])]⟩,
  ⟨1, 1, [(chars! "g.bov", [6, 0, 3]), (chars! "u12", [6, 7, 1, 3]), (chars! "lu12", [7, 14, 4, 1]), (chars! "du11", [14, 0, 4])]⟩,
  ⟨1, 1, [(chars! "v.ooov", [0, 1, 2, 3]), (chars! "u11", [6, 0, 4]), (chars! "lu12", [6, 7, 4, 2]), (chars! "du11", [7, 1, 3])]⟩,
  ⟨-1, 1, [(chars! "v.ooov", [0, 1, 2, 3]), (chars! "u11", [6, 0, 3]), (chars! "lu12", [6, 7, 4, 2]), (chars! "du11", [7, 1, 4])]⟩,
  ⟨1, 1, [(chars! "g.bov", [6, 0, 3]), (chars! "t1", [0, 4]), (chars! "s2", [6, 7]), (chars! "lu12", [7, 14, 4, 1]), (chars! "du11", [14, 1, 3])]⟩,
  ⟨1, 1, [(chars! "g.bvo", [6, 3, 0]), (chars! "t1", [0, 4]), (chars! "lu12", [6, 7, 4, 1]), (chars! "du11", [7, 1, 3])]⟩,
  ⟨1, 1, [(chars! "g.bov", [6, 0, 3]), (chars! "s1", [6]), (chars! "u11", [7, 1, 3]), (chars! "lu12", [7, 14, 4, 1]), (chars! "du11", [14, 0, 4])]⟩,
  ⟨1, 1, [(chars! "g.bov", [6, 0, 3]), (chars! "s1", [6]), (chars! "u11", [7, 0, 4]), (chars! "lu12", [7, 14, 4, 1]), (chars! "du11", [14, 1, 3])]⟩,
  ⟨1, 1, [(chars! "v.oovv", [0, 1, 3, 4]), (chars! "t1", [0, 3]), (chars! "u11", [6, 2, 4]), (chars! "lu12", [6, 7, 5, 2]), (chars! "du11", [7, 1, 5])]⟩,
  ⟨1, 1, [(chars! "v.oovv", [0, 1, 3, 4]), (chars! "t1", [0, 3]), (chars! "u11", [6, 1, 5]), (chars! "lu12", [6, 7, 5, 2]), (chars! "du11", [7, 2, 4])]⟩,
  ⟨1, 1, [(chars! "f.ov", [0, 3]), (chars! "u11", [6, 1, 3]), (chars! "lu12", [6, 7, 4, 1]), (chars! "du11", [7, 0, 4])]⟩,
  ⟨1, 1, [(chars! "f.ov", [0, 3]), (chars! "u11", [6, 0, 4]), (chars! "lu12", [6, 7, 4, 1]), (chars! "du11", [7, 1, 3])]⟩,
  ⟨1, 1, [(chars! "g.boo", [6, 0, 1]), (chars! "s2", [6, 7]), (chars! "lu12", [7, 14, 3, 1]), (chars! "du11", [14, 0, 3])]⟩,
  ⟨1, 1, [(chars! "g.bov", [6, 0, 3]), (chars! "t1", [1, 3]), (chars! "s2", [6, 7]), (chars! "lu12", [7, 14, 4, 1]), (chars! "du11", [14, 0, 4])]⟩,
  ⟨1, 1, [(chars! "g.bvo", [6, 3, 0]), (chars! "t1", [1, 3]), (chars! "lu12", [6, 7, 4, 1]), (chars! "du11", [7, 0, 4])]⟩,
  ⟨1, 1, [(chars! "v.oovv", [0, 1, 3, 4]), (chars! "t1", [0, 5]), (chars! "u11", [6, 2, 3]), (chars! "lu12", [6, 7, 5, 2]), (chars! "du11", [7, 1, 4])]⟩,
  ⟨-1, 1, [(chars! "v.oovv", [0, 1, 3, 4]), (chars! "t1", [0, 5]), (chars! "u11", [6, 1, 3]), (chars! "lu12", [6, 7, 5, 2]), (chars! "du11", [7, 2, 4])]⟩,
  ⟨1, 1, [(chars! "v.ovvv", [0, 3, 4, 5]), (chars! "u11", [6, 1, 4]), (chars! "lu12", [6, 7, 3, 1]), (chars! "du11", [7, 0, 5])]⟩,
  ⟨-1, 1, [(chars! "v.ovvv", [0, 3, 4, 5]), (chars! "u11", [6, 0, 4]), (chars! "lu12", [6, 7, 3, 1]), (chars! "du11", [7, 1, 5])]⟩,
  ⟨1, 1, [(chars! "g.bov", [6, 0, 3]), (chars! "u12", [6, 7, 0, 4]), (chars! "lu12", [7, 14, 4, 1]), (chars! "du11", [14, 1, 3])]⟩,
  ⟨-1, 1, [(chars! "g.bvv", [6, 3, 4]), (chars! "s2", [6, 7]), (chars! "lu12", [7, 14, 3, 0]), (chars! "du11", [14, 0, 4])]⟩,
  ⟨1, 2, [(chars! "g.bov", [6, 0, 3]), (chars! "u12", [7, 14, 1, 3]), (chars! "lu12", [7, 14, 4, 1]), (chars! "du11", [6, 0, 4])]⟩,
  ⟨1, 1, [(chars! "G", [6]), (chars! "lu12", [6, 7, 3, 0]), (chars! "du11", [7, 0, 3])]⟩]

def grad_CCSD_SD_1_2 : List Nat := [
  1, 1, 1, 1, 1, 1, 1, 1, 4, 65537, 65537, 134283265, 1, 65, 65537, 134283265, 65537, 65537, 1, 1, 1, 1, 1, 1, 1, 1,
  1, 1, 1, 1, 1, 1, 1, 1, 1, 1, 1, 1, 1, 1, 1, 1, 1, 1, 1, 1, 1, 65, 65539, 131140, 134283265, 131140, 67239938,
  67239938, 65539, 7, 1179714, 1089, 65, 65537, 65537, 65537, 65, 65537, 65537, 134217797, 1, 134217793, 134217793,
  65, 134283265, 134283265, 65537, 67240961, 135331842, 66561, 134285313, 136380417, 67585, 134283265, 134283266,
  65537, 134283265, 134283265, 65537, 135331841, 135331842, 66561, 67243009, 137428996, 68609, 134283265, 134283268,
  65537, 135331841, 135331844, 66561, 65, 65537, 1, 131137, 65, 134283265, 65537, 131137, 65, 135331841, 66561, 65,
  65537, 65537, 65537, 65537, 65537, 65537, 65537, 67, 65537, 65537, 67241985, 136380423, 134284289, 135331841, 65537,
  67, 65537, 67239937, 134284289, 65537, 1, 134217793, 134217793, 65, 134283265, 134283265, 65537, 134217793,
  134217793, 65, 1, 134217793, 134217793, 134217797, 134217793, 206158561345, 206158561345, 131137, 66, 135331841,
  135331841, 135331847, 135331843, 207366455297, 207366455299, 135331841, 66562, 65, 65537, 67239937, 134283265,
  65537, 65537, 68, 65537, 65537, 65537, 65537, 1, 134217793, 134217793, 65, 65, 65537, 1, 134283265, 65537,
  135331841, 66561, 135331841, 66561, 65, 134217795, 69, 65538, 65, 131137, 201457735, 137640345602, 131141,
  135331841, 134283265, 134283265, 67239939, 134283265, 2, 137642442753, 208440197123, 136380417, 67241985, 67585,
  206293762049, 207366455297, 135331841, 134284289, 66561, 134283265, 134283265, 65537, 206292713473, 206292713473,
  206292713473, 134283265, 134283265, 65537, 134283265, 134283265, 65537, 206292713473, 206292713473, 206292713473,
  134283265, 134283265, 65537, 71, 65537, 65, 131140, 134283265, 131138, 67239938, 206292648001, 206292648001,
  134217793, 201457731, 206294810625, 208440197121, 136380417, 206225670146, 65537, 65, 65537, 65537, 65537, 1,
  201457729, 131137, 131137, 131137, 65, 206292713473, 134283265, 134283265, 134283265, 65537, 65, 65537, 67, 65537,
  206158561345, 131143, 134217797, 206292713473, 134283265, 134283265, 65537, 134283265, 206292713473, 134283265,
  134283265, 134283265, 65537, 206292713473, 134283265, 134283265, 65537, 134283265, 206292713473, 134283265,
  134283265, 134283265, 65537, 206292713473, 134283265, 134283265, 65537, 134283265, 206292713473, 134283265,
  134283265, 134283265, 65537, 206292713473, 134283265, 134283265, 65537, 134283265, 206292713473, 134283265,
  134283265, 134283265, 65537, 206292713473, 134283265, 134283265, 68, 131140, 134283265, 65537, 65537, 135331842,
  67240961, 136380417, 134285313, 134283265, 206292713473, 206292713473, 134283265, 206292713473, 134283265,
  134283265, 134283265, 134283265, 206292713473, 206292713473, 134283265, 206292713473, 134283265, 134283265,
  134283265, 65537, 65537, 65, 134217795, 134283265, 70, 67239941, 134283265, 134283265, 134283265, 134283265,
  134283265, 65537, 65537, 65537, 67585, 67585, 65, 67587, 67587, 4, 1208156226, 1181761, 1094, 4, 134414404,
  136314947, 72, 6, 281475178168385, 206292648001, 134217793, 66, 68, 65537, 134217797, 134283265, 134217793,
  134283265, 134217793, 65537, 65537, 65537, 65537, 134283265, 134283265, 1, 134218817, 1089, 134283265, 65537, 65537,
  134283265, 65537, 65537, 134283265, 65537, 134283265, 65537, 65, 65537, 65537, 1, 134217793, 134217793, 65,
  67243009, 67243009, 68609, 1, 206292713479, 134283265, 134283266, 67239937, 134283271, 65537, 65, 65537, 65537,
  65537, 65537, 65537, 67, 65537, 65537, 206158561345, 134217793, 134217797, 206292713473, 134283265, 134283265, 1,
  134283265, 65537, 1, 206158561345, 206158561345, 131137, 134217793, 134217793, 134217797, 206292648001, 134217793,
  65, 1, 134283265, 67239937, 134283271, 134283267, 206292713473, 206292713475, 134283265, 65538, 65, 65537, 65537,
  68, 65537, 65541, 1, 134217793, 134217793, 65, 68, 135266369, 65537, 135266369, 65537, 65537, 1, 134217793, 65,
  134283265, 65537, 131137, 65, 206292648001, 134217793, 206292713473, 134283265, 1, 206158561345, 206158561347,
  134217793, 131137, 201457729, 131137, 65, 137640345601, 137640345601, 67239937, 134283265, 206292713473, 134283265,
  65537, 65537, 65537, 206158561349, 134217797, 134217793, 206292713473, 134283265, 134283265, 1, 131137, 65,
  134283265, 65537, 134283265, 206292713473, 134283265, 134283265, 65537, 206292713473, 134283265, 206292713473,
  206292713473, 134283265, 134283265, 206292713473, 134283265, 65537, 206292713473, 134283265, 134283265, 134283265,
  65537, 134283265, 137640345603, 134283265, 67239938, 65537, 206292713473, 134283265, 137640345601, 137640345601,
  67239937, 134283265, 206292713473, 134283265, 65537, 137640345602, 67239938, 134283265, 134283265, 65537, 1,
  1179716, 1095, 1, 135331841, 135331842, 135331841, 135331847, 66561, 3, 1179716, 1091, 207366389825, 207366389825,
  135266369, 207232303169, 135266373, 65, 2, 67, 71, 65537, 72, 8, 2115, 65, 65, 1, 65537, 65, 1, 71, 65537, 1, 1, 1,
  1, 1, 1, 1, 1, 1, 1, 1, 1, 1, 1, 1, 1, 1, 1, 1, 1, 1, 1, 1, 1, 1, 1, 1, 1, 1, 1, 1, 1, 1, 1, 65, 67587, 67587,
  134283270, 65537, 134283265, 135266369, 136382465, 209379721345, 135266369, 136380422, 208440197126, 207299411974,
  135266369, 135267393, 134283265, 134283265, 136380422, 65, 65539, 65539, 65539, 131139, 134283265, 65539, 65539, 7,
  3276868, 3142, 1179714, 1089, 1179714, 1089, 134283265, 65537, 65, 65537, 65537, 65537, 65, 65537, 65537,
  208440197127, 206292713473, 131137, 134217793, 134283265, 1, 67243009, 137428994, 68609, 135331841, 135331842,
  66561, 134217793, 134217793, 65, 134283265, 134283265, 65537, 67243009, 137428996, 68609, 135331841, 135331844,
  66561, 134283265, 134283266, 65537, 67243009, 137428996, 68609, 134283265, 134283265, 65537, 131137, 131141, 66,
  1179713, 1179717, 1090, 65, 67587, 67587, 3, 131140, 67, 4, 136314947, 134414404, 131139, 68, 65, 65537, 65537,
  65537, 1, 134217793, 65, 2, 2113, 1278345281, 1182785, 1275200577, 1276248129, 1180737, 1275199553, 1305804537921,
  3355639873, 1179713, 1275199553, 3276865, 1089, 1179713, 65537, 134217793, 134217793, 134283265, 134283265,
  134217793, 206292713473, 206292713473, 135331846, 69994545285, 67, 206292713478, 281681269424134, 206292713478,
  206292713478, 134283270, 65, 2113, 134283270, 134283270, 7, 67, 2115, 2228293, 1, 71068287109, 69206150, 1179717,
  1094, 3, 1179716, 1091, 1089, 65537, 65, 65537, 65537, 65537, 131137, 134283265, 65537, 1, 131137, 134217793, 65,
  201457729, 201457729, 131137, 201457729, 131137, 1275200577, 1208156226, 1179713, 67243009, 67243009, 68609, 65,
  65537, 65537, 65537, 65537, 65537, 71, 65537, 65537, 2115, 65537, 65537, 65, 65537, 65537, 1, 131137, 65, 1179713,
  1089, 135331841, 66561, 131137, 65, 134283265, 65537, 65, 65537, 65537, 65537, 65537, 65537, 65, 65537, 65537,
  208373153794, 136380417, 207366455297, 135331841, 2115, 65537, 134285313, 135331841, 1, 206158561345, 206158561345,
  131137, 134217793, 134217793, 134217797, 134217793, 66, 206292713473, 206292713475, 134283265, 134283265, 67239937,
  134283271, 134283267, 65538, 206158561345, 206158561345, 131137, 134217793, 134217793, 134217797, 134217793, 66,
  206292713473, 206292713473, 134283265, 134283265, 134283265, 134283265, 134283265, 65537, 201457729, 134414402,
  131137, 131137, 131137, 131137, 133185, 65, 207366455297, 207299411970, 135331841, 135331841, 135331841, 135331841,
  135333889, 66561, 65, 65537, 65537, 65537, 65537, 67, 65537, 65537, 136380423, 134283265, 65537, 1, 134217793,
  134217793, 65, 134217793, 134217793, 65, 134283265, 134283265, 65537, 65, 65537, 65537, 1, 134283265, 65537,
  135331841, 66561, 134283265, 65537, 134283265, 65537, 2, 209514987521, 137430021, 209513942017, 209517084673,
  137432065, 137428993, 137428993, 137428998, 137431043, 209513938945, 137428993, 284979737264129, 284842365485060,
  209446895617, 209513938945, 209513938945, 209446895622, 209516036097, 137428994, 209513938945, 209446895620,
  137428994, 209513938945, 137428993, 68609, 65, 65537, 65537, 65, 65537, 65537, 65, 65537, 65537, 65537, 65537,
  65537, 66561, 65537, 134217793, 135266369, 134217793, 135266369, 65537, 134218817, 134283266, 134283265, 134283265,
  134283265, 134283265, 65, 65537, 65537, 65537, 65, 65537, 65537, 65537, 67108995, 67108995, 134283266, 134283266,
  65, 65537, 65537, 65537, 2115, 65537, 134217793, 134283265, 134283265, 134283265, 134217793, 134283265, 134283265,
  134283265, 67109000, 67109000, 67109000, 67109000, 67108993, 67108993, 67108993, 67108993, 65537, 65537, 67108995,
  67108995, 134283266, 134283266, 134283265, 134283269, 134283269, 134283265, 134283269, 134283269, 1, 137506062536,
  137506062536, 67109000, 67109000, 67109000, 137506062536, 137506062536, 137506062536, 137506062536, 137506062536,
  137506062536, 72, 65, 65537, 67108993, 65, 65537, 67108995, 134283265, 65537, 65, 65537, 65537, 65537, 66, 65537,
  67108998, 67108998, 67108998, 67108998, 65537, 67108994, 67108994, 134283267, 134283267, 65537, 67108993, 67108993,
  67108993, 66561, 65537, 65537, 65, 65537, 65537, 1, 134283265, 134283266, 65537, 134283265, 134283268, 65537,
  134283265, 134283265, 65537, 206225670145, 206292713479, 134283266, 206292713473, 206292713479, 134283266,
  206292713473, 206292713479, 134283266, 206225670145, 206292713479, 134283266, 207299411969, 207366455303, 135331842,
  1, 134217793, 65, 206225670149, 134283265, 206292713479, 134283265, 1, 1179713, 1089, 68920803457, 67108993,
  206292713473, 134283265, 68719673473, 67108993, 206292713473, 134283265, 131137, 65, 134283265, 65537, 1, 132161,
  131137, 201457729, 201457729, 131137, 201457729, 131137, 202506305, 132161, 65, 65537, 134283265, 65537,
  206292713473, 134283265, 65, 66, 206292713473, 206292713473, 206292713473, 134283265, 134283265, 1, 131140, 65,
  65537, 65537, 131137, 134283265, 135331841, 134283265, 1, 134218817, 1089, 207366455297, 207366455297, 135331841,
  207366455297, 135331841, 207366456321, 134284290, 134283265, 65537, 65537, 65537, 134283265, 134283265, 134283265,
  134283265, 134283265, 134283265, 67, 65537, 65537, 1, 131143, 65, 1, 131137, 131143, 66, 65, 65537, 65, 65537,
  66561, 65537, 1, 135331841, 66561, 134283265, 65537, 131137, 65, 1, 206292713473, 206292713473, 134283265,
  134283266, 134283265, 134284289, 206293762049, 134284289, 65537, 207366455297, 207366455297, 135331841, 135331842,
  135331841, 135332865, 207367503873, 135332865, 66561, 1, 65, 65, 66, 65, 67108993, 67108993, 67108993, 65537, 65537,
  135331841, 135331841, 136380417, 136380417, 65537, 1, 206225670145, 134283266, 208440197121, 136380417, 134283269,
  206292713473, 134283265, 134283269, 134283265, 134283265, 206292713473, 134283265, 134283269, 206292713473,
  134283265, 134283269, 134283265, 134283265, 206292713473, 134283265, 131137, 65, 134217793, 65, 134283265, 65537,
  65537, 65537, 3139, 65537, 5, 3276865, 3279937, 3143, 134283265, 134283265, 65537, 7, 71068287107, 69206152,
  206292713473, 134283265, 134283269, 134283269, 134283265, 134283265, 134283265, 65538, 65537, 134283269, 134283269,
  65541, 206292713477, 134283269, 134283269, 134283269, 134283265, 134283265, 134283265, 65538, 65537, 134283269,
  134283269, 65541, 206292713477, 134283269, 134283269, 134283269, 134283265, 134283265, 134283265, 65538, 65537,
  134283269, 134283269, 65541, 206292713477, 134283269, 134283269, 134283269, 134283265, 134283265, 134283265, 65538,
  65537, 134283269, 134283269, 65541, 206292713477, 134283269, 65, 65538, 1, 136380417, 136380417, 208440197121,
  136380417, 67585, 135331841, 135331841, 207366455297, 135331841, 66561, 206292713473, 134283265, 134283269,
  134283269, 65541, 134283265, 134283265, 206292713473, 134283265, 65537, 206292713473, 134283265, 134283269,
  134283269, 65541, 134283265, 134283265, 206292713473, 134283265, 65537, 66, 65539, 65538, 67585, 65541, 65537,
  65541, 65537, 1094, 136381441, 134283265, 134283269, 134283269, 134283265, 134283269, 134283269, 134283265, 65537,
  68, 131137, 134283269, 134283269, 134283269, 134283269, 3, 131140, 67, 4, 1179715, 1275199555, 1179715, 1091, 1,
  134283265, 134283266, 67239937, 134283271, 65537, 135331841, 135331847, 135331841, 135332865, 66562, 1, 134217793,
  65, 1, 206292648001, 206292648001, 134217793, 206158561345, 134217793, 134217793, 134217797, 206158561345, 131137,
  65, 1, 134217793, 65, 65, 65537, 65537, 1, 1179713, 1089, 1, 66561, 71, 207367506945, 207366458369, 135334913,
  207367503873, 135332865, 282780781051905, 282780714008578, 207366455297, 207366455297, 207299411969, 207366455301,
  207366457345, 135331842, 207367503873, 135332865, 207299411969, 135331842, 207366455297, 207366455299, 207299411969,
  207366456321, 135331842, 282780781051905, 282780714008579, 207366455297, 282781787750401, 207367503873,
  207367503873, 207366455301, 282780714008577, 207299411969, 135331841, 207366455299, 135331841, 207367503873,
  135332865, 66561, 135332865, 135331846, 2, 206293762049, 134284293, 206292716545, 206295859201, 134286337,
  134283265, 134283265, 134283270, 134285315, 206292713473, 134283265, 281681202380801, 281543830601732, 206225670145,
  206292713473, 206292713473, 206225670150, 206294810625, 134283266, 206292713473, 206225670148, 134283266,
  206292713473, 134283265, 65537, 207367503873, 135332869, 207366458369, 207369601025, 135334913, 135331841,
  135331841, 135331846, 135333891, 207366455297, 135331841, 282780714008577, 282643342229508, 207299411969,
  207366455297, 207366455297, 207299411974, 207368552449, 135331842, 207366455297, 207299411972, 135331842,
  207366455297, 135331841, 66561, 1, 137506062529, 137506062529, 67108993, 67108993, 67108993, 137506062529,
  137506062529, 137506062529, 137506062529, 137506062529, 137506062529, 65, 66, 65537, 66561, 134283265, 134283265,
  134283265, 134283265, 65537, 65537, 1, 131137, 134209, 65, 134283265, 134283265, 65537, 206292713473, 206292713473,
  134283265, 206292713473, 134283265, 134283265, 134283265, 65537, 65537, 134283265, 134283265, 134283265, 65537,
  206292713473, 206292713473, 134283265, 206292713473, 134283265, 134283265, 134283265, 65537, 65537, 134283265,
  134283265, 134283265, 65537, 68, 135331848, 65537, 135331841, 66562, 65537, 65537, 65537, 134283265, 134283265,
  134283265, 65537, 134283265, 134283265, 65537, 65537, 134283265, 134283265, 134283265, 65537, 134283265, 134283265,
  65537, 65537, 65, 70, 2, 2118, 8, 65, 1, 66, 65537, 1, 65537, 70, 65537, 65538, 65, 65537, 65, 65537, 65, 65538,
  65537, 134283265, 65537, 134283265, 65537, 65537, 1, 202506305, 132165, 201460801, 204603457, 134209, 201457729,
  131137, 201457729, 201457729, 134414406, 203554881, 275012321345, 137640542276, 134414401, 131138, 201457729,
  134414404, 131138, 201457729, 131137, 131137, 65, 133187, 131142, 131137, 1, 201457733, 2283997251, 2348941381,
  203556929, 201457733, 201459777, 2351038533, 2228289, 2336730841157, 275081461825, 277159804994, 203554881,
  201459777, 133186, 2348943425, 203554885, 131137, 137707585605, 2474104717377, 2476183060546, 2351038529,
  2348943425, 2230338, 3279942, 1278345283, 275012321345, 201457729, 201457729, 201460801, 131137, 278233546817,
  3355639878, 2352087109, 2231366, 204603459, 1374523949121, 1275199553, 1275199553, 1275202625, 1179713,
  1377745174593, 2281898054, 3425828933, 1182790, 3425828931, 2474035576897, 2348941377, 2348941377, 2348944449,
  2228289, 2477256802369, 1208156230, 204603461, 134214, 2352087107, 3573547204673, 3422683201, 3422683201,
  3422686273, 3276865, 3576768430145, 134414406, 1278345285, 201458753, 275080413249, 276086063171, 202506305,
  1305804537923, 204606529, 1276248131, 201458753, 1275200577, 1374592041025, 1375597690947, 1276248129, 206292910147,
  1278348353, 202506307, 1275200577, 1275199555, 1209205826, 201457731, 135464002, 132162, 1180738, 275079364673,
  134414401, 131141, 211244007292993, 275079364673, 201457733, 1179714, 131138, 65, 131141, 1, 201457729, 201457729,
  131137, 202506305, 132161, 131138, 131137, 65, 132161, 1, 201457729, 201457729, 131137, 201457729, 131137,
  201458753, 1180738, 1179713, 1275200577, 132162, 1, 202506305, 132161, 202506305, 132161, 134414401, 131138,
  201460801, 202509377, 134209, 275012321347, 201457729, 201457731, 134414401, 201458753, 131138, 275012321345,
  276086063169, 134414401, 202506305, 202506305, 201457733, 275079364673, 201457729, 131137, 201457729, 134414401,
  201457733, 201459777, 275079364673, 275012321346, 201457729, 131138, 202506305, 201457731, 131137, 132161, 65,
  131142, 132161, 1, 201457729, 201457729, 201457733, 201459777, 275079364673, 275012321346, 201457729, 131138,
  201460801, 201457729, 202506305, 1305938624579, 202506305, 1208156230, 1180738, 275080413249, 201457729,
  1305938624577, 1305938624577, 1208156225, 201458753, 275080413249, 201457729, 131137, 1305938624578, 1208156228,
  202506305, 201458753, 131137, 1276248129, 275079364673, 1276248129, 201457733, 132162, 1374592041025, 1275199553,
  275079364673, 275079364673, 201457729, 1275200577, 1374592041025, 1275199553, 1179713, 275079364673, 201457731,
  1276248129, 1275200577, 1179713, 201457731, 131142, 201457729, 201457731, 201457729, 201458753, 131138,
  275079364673, 275012321347, 201457729, 275012321345, 201457733, 65537, 67239940, 134283265, 65537, 67239937,
  134283265, 65537, 65537, 68920934402, 137640345601, 67239937, 68920934401, 137640345601, 68920934404, 137640345601,
  67239937, 68920934401, 137640345601, 67239937, 68920934401, 137640345601, 68920934401, 137640345601, 68920934403,
  137640345601, 68920934403, 137640345601, 70643823542273, 141012567654401, 211381244723201, 70643823542276,
  141012567654401, 211381244723201, 68920934401, 137640345601, 67239938, 68920934401, 137640345601, 68920934402,
  137640345601, 67239938, 68920934401, 137640345601, 67239937, 67239937, 67239937, 67239941, 67239937, 68923031555,
  137640345601, 68923031555, 137640345601, 68920934401, 137640345601, 68923031553, 137640345601, 68920934403,
  137640345601, 67239937, 70644897284099, 141012567654401, 211381244723201, 70645971025921, 141012567654401,
  211381244723201, 70643823542276, 141014715138049, 211381244723201, 68923031553, 137640345601, 68920934401,
  137640345601, 67239938, 67239941, 68923031554, 137640345601, 70644897284097, 141014715138049, 211381244723201,
  68921982977, 137640345601, 68923031553, 137640345601, 68924080129, 137640345601, 67239937, 70644897284099,
  141014715138050, 211381244723201, 68920934405, 137640345601, 68921982979, 137640345601, 68920934401, 137640345601,
  70644897284097, 141012567654401, 211381244723201, 70643823542276, 141013641396225, 211381244723201, 68921982977,
  137640345601, 70643823542273, 141014715138050, 211381244723201, 68924080132, 137640345601, 68920934402,
  137640345601, 68921982977, 137640345601, 68920934401, 137640345601, 68921982978, 137640345601, 67239938,
  70645971025922, 141012567654401, 211381244723201, 68920934401, 137640345601, 67239941, 72410812349808643,
  144467306876043265, 216527099870117890, 288582426165313537, 70644897284099, 141012567654401, 211381244723201,
  68921982979, 137640345601, 67239937, 67239941, 68920934401, 137640345601, 68920934404, 137640345601, 67239937,
  68920934401, 137640345601, 67239937, 67239938, 67239937, 67239937, 68920934401, 137640345601, 68920934404,
  137640345601, 67239937, 68921982980, 137640345601, 67239937, 68921982977, 137640345601, 67239938, 68920934401,
  137640345601, 67239937, 68920934401, 137640345601, 67239937, 68920934401, 137640345601, 67239938, 68920934404,
  137640345601, 68920934401, 137640345601, 67239937, 70643823542276, 141012567654401, 211381244723201, 68920934401,
  137640345601, 68920934402, 137640345601, 68920934401, 137640345601, 68920934402, 137640345601, 67239938,
  70643823542275, 141012567654402, 211381244723201, 70643823542273, 141012567654401, 211381244723201, 68920934401,
  137640345601, 68920934401, 137640345601, 68920934401, 137640345601, 68920934403, 137640345601, 70643823542273,
  141012567654401, 211381244723201, 68920934401, 137640345601, 67239937, 68920934401, 137640345601, 68920934401,
  137640345601, 68920934403, 137640345601, 68920934403, 137640345601, 70643823542273, 141012567654401,
  211381244723201, 70643823542276, 141012567654401, 211381244723201, 68920934401, 137640345601, 67239938, 68920934401,
  137640345601, 68920934402, 137640345601, 67239937, 67239937, 67239941, 67239937, 68920934401, 137640345601,
  68920934401, 137640345601, 68920934403, 137640345601, 68920934403, 137640345601, 70643823542273, 141012567654401,
  211381244723201, 70643823542276, 141012567654401, 211381244723201, 68920934401, 137640345601, 67239938, 68920934404,
  137640345601, 68920934401, 137640345601, 68921982977, 137640345601, 70643823542274, 141013641396227,
  211381244723201, 68921982977, 137640345601, 68921982979, 137640345601, 67239938, 70643823542273, 141013641396225,
  211381244723201, 68920934401, 137640345601, 70643823542273, 141013641396225, 211381244723201, 70643823542276,
  141013641396225, 211381244723201, 68921982977, 137640345601, 68921982977, 137640345601, 70643823542273,
  141013641396225, 211381244723201, 68920934401, 137640345601, 67239937, 70643823542275, 141013641396226,
  211381244723201, 68921982978, 137640345601, 68921982977, 137640345601, 68921982977, 137640345601, 67239937,
  68920934402, 137640345601, 67239941, 68920934401, 137640345601, 68920934402, 137640345601, 68920934401,
  137640345601, 68920934402, 137640345601, 67239938, 70643823542273, 141012567654401, 211381244723201, 70643823542276,
  141012567654401, 211381244723201, 68920934401, 137640345601, 70643823542275, 141012567654402, 211381244723201,
  68920934403, 137640345601, 1, 206294810631, 281683416907783, 281682343165955, 206293762051, 281682343165953,
  281682343165955, 206293762049, 281682343165955, 360570750970691587, 281682343165955, 206293762051, 281682343165953,
  206293762053, 134284293, 206293762049, 281683416907783, 360571850482319367, 281683416907783, 281681269424135,
  206292713479, 206292713479, 206294810631, 134285315, 206294810627, 281683416907783, 206294810631, 281681269424129,
  281681269424131, 206292713473, 281681269424131, 206292713475, 281681269424129, 281681269424131, 206292713473,
  281681269424129, 281681269424131, 206292713473, 206292713473, 206292713473, 206292713475, 206292713475, 134283266,
  281684490649601, 206295859201, 281684490649601, 281684490649601, 206295859201, 206295859201, 206295859201,
  206295859201, 206295859201, 281684490649601, 206295859201, 360572949993947137, 360572949993947137, 281684490649601,
  281684490649601, 281684490649601, 281684490649601, 281684490649601, 206295859201, 281684490649601, 281684490649601,
  206295859201, 281684490649601, 206295859201, 134286337, 206292713480, 206292713480, 206292713480, 206292713480,
  281681269424136, 281681269424136, 206292713480, 206292713480, 206292713480, 281681269424136, 281681269424136,
  281681269424136, 281681269424136, 281681269424136, 281681269424136, 134283272, 206292713479, 206292713479,
  206292713479, 206292713479, 281681269424129, 281681269424135, 206292713474, 281681269424129, 281681269424135,
  206292713474, 281681269424129, 281681269424135, 206292713474, 281683416907777, 281683416907783, 206294810626,
  281681269424135, 206292713473, 281681269424135, 206292713473, 206292713473, 206292713475, 281681269424129,
  281681269424131, 206292713473, 281681269424131, 206292713473, 281681269424129, 206292713473, 134283265,
  281682343165953, 206293762049, 281681269424129, 281681269424129, 281683416907777, 206292713473, 206292713473,
  281681269424129, 281681269424129, 206292713473, 281681269424129, 206292713473, 281681269424129, 206292713473,
  206294810625, 206292713473, 206292713479, 134283265, 206292713473, 206292713479, 134283266, 281681269424129,
  281681269424129, 206292713473, 206292713473, 206292713473, 206292713473, 281681269424129, 206292713473, 134283265,
  134283265, 206292713473, 206292713473, 206292713473, 134283265, 134283267, 65538, 1, 206292713477, 281681269424133,
  206292713477, 208442294275, 208440197126, 208442294278, 206294810627, 206292713478, 206294810630, 207366455303,
  282781854793735, 207367503879, 207366455303, 206293762049, 206293762049, 281682343165953, 206293762050,
  206292713479, 281682343165959, 206293762055, 206292713479, 207367503873, 207367503873, 282781854793729,
  207367503874, 209513938952, 209513938952, 206295859201, 206292713473, 206292713473, 134283266, 134283265,
  209517084679, 209517084680, 137432067, 284983025532936, 209517084680, 208440197128, 208440197128, 207369601025,
  207366455297, 207366455297, 135331842, 135331841, 208443342855, 208443342856, 136383491, 283883513905160,
  208443342856, 207366455304, 207366455304, 208443342849, 208440197121, 208440197121, 136380418, 136380417,
  207369601031, 207369601032, 135334915, 282784002277384, 207369601032, 206292713480, 206292713480, 209517084673,
  209513938945, 209513938945, 137428994, 137428993, 206295859207, 206295859208, 134286339, 281684490649608,
  206295859208, 283882440163331, 208442294275, 208440197126, 208440197126, 136380421, 206294810625, 206294810625,
  281683416907777, 206294810625, 134285314, 281683416907779, 206294810627, 206292713478, 206292713478, 134283269,
  208442294273, 208442294273, 283882440163329, 208442294273, 136382466, 135331847, 134284290, 134283271, 135332866,
  207366455303, 207367503879, 207367503879, 206292713479, 206293762055, 206293762055, 209513938952, 208440197128,
  207366455304, 206292713480, 206292713473, 281681269424129, 206292713473, 134283269, 134283269, 65541, 1,
  206292713473, 206292713473, 206292713473, 206292713473, 206292713473, 206292713473, 206292713473, 206292713473,
  281682343165953, 281682343165953, 206293762049, 206293762049, 206293762049, 206293762049, 281682343165953,
  206293762049, 134284289, 281682343165953, 281682343165953, 206293762049, 281682343165953, 206293762049,
  360570750970691585, 360570750970691585, 281682343165953, 281682343165953, 281682343165953, 281682343165953,
  281682343165953, 206293762049, 281682343165953, 206293762049, 281682343165953, 206293762049, 281682343165953,
  281682343165953, 281682343165953, 281682343165953, 206293762049, 360570750970691585, 360570750970691585,
  281682343165953, 360570750970691585, 281682343165953, 281682343165953, 281682343165953, 360570750970691585,
  281682343165953, 206293762049, 281682343165953, 206293762049, 281682343165953, 206293762049, 134284289,
  206293762049, 206293762049, 281681269424129, 206292713473, 281681269424129, 281681269424129, 206292713473,
  206292713473, 206292713473, 206292713473, 206292713473, 281681269424129, 206292713473, 360569651459063809,
  360569651459063809, 281681269424129, 281681269424129, 281681269424129, 281681269424129, 281681269424129,
  206292713473, 281681269424129, 281681269424129, 206292713473, 281681269424129, 206292713473, 134283265,
  281681269424129, 281681269424129, 206292713473, 206292713473, 206292713473, 281681269424129, 281681269424129,
  281681269424129, 281681269424129, 281681269424129, 281681269424129, 134283265, 134283265, 65537, 134283266, 1,
  281681269424129, 206292713473, 281681269424129, 281681269424129, 206292713473, 206292713473, 206292713473,
  206292713473, 206292713473, 281681269424129, 206292713473, 360569651459063809, 360569651459063809, 281681269424129,
  281681269424129, 281681269424129, 281681269424129, 281681269424129, 206292713473, 281681269424129, 281681269424129,
  206292713473, 281681269424129, 206292713473, 134283265, 281682343165953, 281681269424129, 206292713473,
  281682343165953, 206293762049, 206293762049, 206292713473, 134283265, 135332866, 206293762049, 206292713473,
  206292713473, 134283265, 282781854793729, 282780781051905, 207366455297, 282781854793729, 207367503873,
  207367503873, 207366455297, 135331841, 134284290, 207367503873, 207366455297, 207366455297, 135331841, 1,
  206292713473, 206292713480, 134283266, 134284289, 65537, 134286337, 134283267, 134284289, 134283266, 134283265,
  134283266, 134283265, 134284289, 134284289, 134283266, 1, 206292713473, 206292713480, 134283266, 206292713480,
  281681269424136, 206292713479, 134283267, 281681269424129, 281681269424131, 206292713473, 206292713473,
  206292713473, 206292713475, 206292713475, 134283266, 281681269424129, 281681269424135, 206292713474, 206292713473,
  206292713479, 206292713473, 206292713479, 134283266, 206292713480, 206292713473, 206292713473, 206293762049,
  206292713473, 134283265, 206293762049, 206293762049, 135332866, 134283265, 207366455297, 207367503873, 207366455297,
  135331841, 207367503873, 207367503873, 134284290, 135331841, 1, 1, 70372235083905, 68722820229, 70372234038401,
  70372237181057, 68722822273, 70372234035329, 68722819201, 70372234035329, 70372234035329, 70372166992006,
  70372236132481, 72061236371783809, 72061099000004740, 70372166992001, 68722819202, 70372234035329, 70372166992004,
  68722819202, 70372234035329, 68722819201, 68722819201, 67112065, 68722821251, 68722819206, 68722819201, 1, 1,
  70369012809857, 70369012809857, 68719673473, 70369013858433, 68719674497, 68719673474, 68719673473, 67108993,
  68719674497, 1, 1, 70369013858433, 68719674501, 70369012812929, 70369015955585, 68719676545, 70369012809857,
  68719673473, 70369012809857, 70369012809857, 70368945766534, 70369014907009, 72057937836900481, 72057800465121412,
  70368945766529, 68719673474, 70369012809857, 70368945766532, 68719673474, 70369012809857, 68719673473, 68719673473,
  67108993, 68719675523, 68719673478, 68719673473, 1, 1, 70370086551681, 70370086551681, 68720722049, 70370087600257,
  68720723073, 68720722050, 68720722049, 67110017, 68720723073, 1, 1, 70369012809857, 70369012809857, 68719673473,
  70369012809857, 68719673473, 70369012810881, 68720723074, 68720722049, 70370086552705, 68719674498, 1, 1,
  70370087600257, 68720723073, 70370087600257, 68720723073, 70370019508353, 68720722050, 70370086554753,
  70370087603329, 68720725121, 72059037348528259, 70370086551681, 70370086551683, 70370019508353, 70370086552705,
  68720722050, 72059037348528257, 72059038422270081, 70370019508353, 70370087600257, 70370087600257, 70370086551685,
  72059037415571585, 70370086551681, 68720722049, 70370086551681, 70370019508353, 70370086551685, 70370086553729,
  72059037415571585, 72059037348528258, 70370086551681, 68720722050, 70370087600257, 70370086551683, 68720722049,
  68720723073, 67110017, 68720722054, 68720723073, 1, 1, 70369013858433, 68719674501, 70369012812929, 70369015955585,
  68719676545, 70369012809857, 68719673473, 70369012809857, 70369012809857, 70368945766534, 70369014907009,
  72057937836900481, 72057800465121412, 70368945766529, 68719673474, 70369012809857, 70368945766532, 68719673474,
  70369012809857, 68719673473, 68719673473, 67108993, 68719675523, 68719673478, 68719673473, 1, 1, 1, 1, 206292713473,
  1, 1, 1, 1, 206292713473, 1, 1, 1, 1, 206292713473, 1, 1, 1, 134283265, 1, 1, 1, 1, 206292713473, 1, 1, 1, 1, 1,
  281681269424129, 1, 1, 1, 1, 206292713473, 1, 1, 1, 1, 206292713473, 1, 1, 1, 1, 206292713473, 1, 1, 1, 1,
  206292713473, 1, 1, 1, 1, 206292713473, 1, 1, 1, 1, 206292713473, 1, 1, 1, 134283265, 1, 1, 1, 134283265, 1, 1, 1,
  1, 206292713473, 1, 1, 1, 1, 206292713473, 1, 1, 1, 134283265, 1, 1, 1, 1, 206292713473, 1, 1, 1, 1, 206292713473,
  1, 1, 1, 1, 206292713473, 1, 1, 1, 134283265, 1, 1, 1, 1, 206292713473, 1, 1, 1, 1, 206292713473, 1, 1, 1, 1,
  206292713473, 1, 1, 1, 1, 1, 281681269424129, 1, 1, 1, 1, 206292713473, 1, 1, 1, 1, 206292713473, 1, 1, 1, 1,
  206292713473, 1, 1, 1, 1, 206292713473, 1, 1, 1, 1, 206292713473, 1, 1, 1, 1, 1, 281681269424129, 1, 1, 1, 1,
  206292713473, 1, 1, 1, 1, 1, 281681269424129, 1, 1, 1, 1, 206292713473, 1, 1, 1, 1, 206292713473, 1, 1, 1, 1,
  206292713473, 1, 1, 1, 1, 206292713473, 1, 1, 1, 1, 206292713473, 1, 1, 1, 1, 206292713473, 1, 1, 1, 1, 1,
  281681269424129, 1, 1, 1, 1, 1, 281681269424129, 1, 1, 1, 1, 206292713473, 1, 1, 1, 1, 206292713473, 1, 1, 1, 1,
  206292713473, 1, 1, 1, 1, 206292713473, 1, 1, 1, 1, 206292713473, 1, 1, 1, 1, 1, 281681269424129, 1, 1, 1, 1, 1,
  281681269424129, 1, 1, 1, 1, 206292713473, 1, 1, 1, 1, 206292713473, 1, 1, 1, 1, 206292713473, 1, 1, 1, 1, 1,
  281681269424129, 1, 1, 1, 1, 206292713473, 1, 1, 1, 1, 1, 281681269424129, 1, 1, 1, 1, 1, 281681269424129, 1, 1, 1,
  1, 1, 281681269424129, 1, 1, 1, 1, 1, 281681269424129, 1, 1, 1, 1, 206292713473, 1, 1, 1, 1, 206292713473, 1, 1, 1,
  1, 206292713473, 1, 1, 1, 1, 1, 281681269424129, 1, 1, 1, 1, 206292713473, 1, 1, 1, 1, 1, 281681269424129, 1, 1, 1,
  1, 1, 281681269424129, 1, 1, 1, 1, 206292713473, 1, 1, 1, 1, 206292713473, 1, 1, 1, 1, 206292713473, 1, 1, 1, 1,
  206292713473, 1, 1, 1, 1, 206292713473, 1, 1, 1, 134283265]

def gamps_CC2 : List Nat := [
  1, 1, 1, 1, 1, 1, 1, 1, 1, 1, 1, 1, 65537, 65537, 134283267, 65, 65537, 134217795, 65, 65537, 201457735, 131137,
  131138, 65, 65543, 206292713475, 65537, 65, 65, 65, 134217793, 131143, 135331841, 137640345602, 206225670148, 65,
  65, 1, 65539, 65537, 2113, 65666, 67239939, 65538, 206292713473, 134283265, 134283265, 134283265, 134283265,
  134283265, 206292713473, 67585, 67585, 65538, 65538, 66561, 66561, 66, 134217793, 281475178168385, 65537, 66, 65537,
  134283266, 67587, 67239940, 65537, 134283268, 66, 131137, 134217797, 134217793, 206158561345]

def gamps_CCSD_S_1_1 : List Nat := [
  1, 1, 1, 1, 1, 1, 1, 1, 1, 1, 1, 1, 1, 1, 1, 1, 1, 1, 1, 1, 1, 1, 1, 1, 1, 1, 1, 65, 65539, 131140, 134283265,
  131140, 67239938, 67239938, 7, 1179714, 1089, 65, 65537, 65537, 65537, 65, 65537, 65537, 134217797, 1, 134217793,
  134217793, 65, 134283265, 134283265, 65537, 67240961, 135331842, 66561, 134285313, 136380417, 67585, 67243009,
  137428996, 68609, 134283265, 134283268, 65537, 65, 65537, 1, 131137, 65, 134283265, 65537, 131137, 65, 65, 65537,
  65537, 65537, 65537, 65537, 67, 65537, 65537, 67241985, 136380423, 134284289, 135331841, 67, 65537, 67239937,
  134284289, 1, 134217793, 134217793, 65, 134283265, 134283265, 65537, 1, 134217793, 134217793, 134217797, 134217793,
  206158561345, 206158561345, 131137, 66, 134283265, 67239937, 134283271, 134283267, 206292713473, 206292713475,
  134283265, 65538, 65, 65537, 67239937, 134283265, 65537, 68, 65537, 65537, 65537, 1, 134217793, 134217793, 65, 1,
  65, 65537, 134283265, 65, 134217795, 71, 65537, 65, 131140, 134283265, 131138, 67239938, 206292648001, 206292648001,
  134217793, 201457731, 206294810625, 208440197121, 136380417, 206225670146, 65, 65537, 65537, 65537, 1, 201457729,
  131137, 131137, 131137, 65, 206292713473, 134283265, 134283265, 134283265, 65537, 65, 65537, 67, 65537,
  206158561345, 131143, 134217797, 206292713473, 134283265, 134283265, 65537, 134283265, 206292713473, 134283265,
  134283265, 134283265, 65537, 206292713473, 134283265, 134283265, 65537, 134283265, 206292713473, 134283265,
  134283265, 134283265, 65537, 206292713473, 134283265, 134283265, 65537, 134283265, 206292713473, 134283265,
  134283265, 134283265, 65537, 206292713473, 134283265, 134283265, 65537, 134283265, 206292713473, 134283265,
  134283265, 134283265, 65537, 206292713473, 134283265, 134283265, 69, 65538, 65, 131137, 201457735, 137640345602,
  131141, 135331841, 134283265, 134283265, 67239939, 134283265, 2, 137642442753, 208440197123, 136380417, 67241985,
  67585, 206293762049, 207366455297, 135331841, 134284289, 66561, 134283265, 134283265, 65537, 206292713473,
  206292713473, 206292713473, 134283265, 134283265, 65537, 134283265, 134283265, 65537, 206292713473, 206292713473,
  206292713473, 134283265, 134283265, 65537, 65537, 67585, 67585, 68, 134217793, 134283265, 65537, 65537, 135331842,
  67240961, 136380417, 134285313, 134283265, 206292713473, 206292713473, 134283265, 206292713473, 134283265,
  134283265, 134283265, 134283265, 206292713473, 206292713473, 134283265, 206292713473, 134283265, 134283265,
  134283265, 65537, 65, 134217795, 134283265, 70, 67239941, 134283265, 134283265, 134283265, 134283265, 134283265,
  65537, 65, 67587, 67587, 4, 1208156226, 1181761, 1094, 4, 134414404, 136314947, 72, 6, 281475178168385,
  206292648001, 134217793, 66, 68, 65537, 1, 134217793, 65, 67243009, 68609, 1, 206292713479, 134283265, 134283266,
  67239937, 134283271, 65537, 1, 134283265, 65537, 1, 67, 206158561345, 131137, 206292648001, 134217793, 65,
  134217797, 1, 68, 65, 134217793, 1, 65537, 65537, 134283265, 65537, 2, 65, 67, 71, 72, 8, 2115, 65, 65, 1, 1, 71]

def gamps_CCSD_SD_1_1 : List Nat := [
  1, 1, 1, 1, 1, 1, 1, 1, 1, 1, 1, 1, 1, 1, 1, 1, 1, 1, 1, 1, 1, 1, 1, 1, 1, 1, 1, 1, 65, 65539, 131140, 134283265,
  131140, 67239938, 67239938, 7, 1179714, 1089, 65, 65537, 65537, 65537, 65, 65537, 65537, 134217797, 1, 67240961,
  135331842, 66561, 134285313, 136380417, 67585, 134217793, 134217793, 65, 134283265, 134283265, 65537, 67243009,
  137428996, 68609, 134283265, 134283268, 65537, 65, 65537, 1, 131137, 65, 134283265, 65537, 131137, 65, 65, 65537,
  65537, 65537, 65537, 65537, 67, 65537, 65537, 67241985, 136380423, 134284289, 135331841, 67, 65537, 67239937,
  134284289, 1, 134217793, 134217793, 65, 134283265, 134283265, 65537, 1, 134217793, 134217793, 134217797, 134217793,
  206158561345, 206158561345, 131137, 66, 134283265, 67239937, 134283271, 134283267, 206292713473, 206292713475,
  134283265, 65538, 65, 65537, 67239937, 134283265, 65537, 68, 65537, 65537, 65537, 1, 134217793, 134217793, 65, 65,
  65537, 1, 134283265, 65537, 135331841, 66561, 65, 134217795, 71, 65537, 65, 131140, 134283265, 131138, 67239938,
  206292648001, 206292648001, 134217793, 201457731, 206294810625, 208440197121, 136380417, 206225670146, 65, 65537,
  65537, 65537, 1, 201457729, 131137, 131137, 131137, 65, 206292713473, 134283265, 134283265, 134283265, 65537, 65,
  65537, 67, 65537, 206158561345, 131143, 134217797, 206292713473, 134283265, 134283265, 65537, 134283265,
  206292713473, 134283265, 134283265, 134283265, 65537, 206292713473, 134283265, 134283265, 65537, 134283265,
  206292713473, 134283265, 134283265, 134283265, 65537, 206292713473, 134283265, 134283265, 65537, 134283265,
  206292713473, 134283265, 134283265, 134283265, 65537, 206292713473, 134283265, 134283265, 65537, 134283265,
  206292713473, 134283265, 134283265, 134283265, 65537, 206292713473, 134283265, 134283265, 68, 131140, 134283265,
  65537, 65537, 135331842, 67240961, 136380417, 134285313, 134283265, 206292713473, 206292713473, 134283265,
  206292713473, 134283265, 134283265, 134283265, 134283265, 206292713473, 206292713473, 134283265, 206292713473,
  134283265, 134283265, 134283265, 65537, 65, 134217795, 134283265, 70, 67239941, 134283265, 134283265, 134283265,
  134283265, 134283265, 65537, 69, 65538, 65, 131137, 201457735, 137640345602, 131141, 135331841, 134283265,
  134283265, 67239939, 134283265, 2, 137642442753, 208440197123, 136380417, 67241985, 67585, 206293762049,
  207366455297, 135331841, 134284289, 66561, 134283265, 134283265, 65537, 206292713473, 206292713473, 206292713473,
  134283265, 134283265, 65537, 134283265, 134283265, 65537, 206292713473, 206292713473, 206292713473, 134283265,
  134283265, 65537, 65537, 67585, 67585, 65, 67587, 67587, 4, 1208156226, 1181761, 1094, 4, 134414404, 136314947, 72,
  6, 281475178168385, 206292648001, 134217793, 66, 68, 65537, 134217793, 65537, 65537, 65537, 65537, 1, 134218817,
  1089, 134283265, 65537, 65537, 134283265, 65537, 65537, 134283265, 65537, 134283265, 65537, 65, 65537, 1, 134217793,
  134217793, 65, 67243009, 67243009, 68609, 1, 206292713479, 134283265, 134283266, 67239937, 134283271, 65537, 1,
  134283265, 65537, 1, 65, 67, 206158561345, 206158561345, 131137, 206292648001, 134217793, 65, 134217793, 134217797,
  1, 65, 68, 65, 134217793, 134217793, 65, 67, 71, 2, 65537, 72, 8, 2115, 65, 1, 65, 65, 71, 1]

def gamps_CCSD_SD_1_2 : List Nat := [
  1, 1, 1, 1, 1, 1, 1, 1, 1, 1, 1, 1, 1, 1, 1, 1, 1, 1, 1, 1, 1, 1, 1, 1, 1, 1, 1, 1, 1, 65, 65539, 131140, 134283265,
  131140, 67239938, 67239938, 65539, 7, 1179714, 1089, 65, 65537, 65537, 65537, 65, 65537, 65537, 134217797, 1,
  134217793, 134217793, 65, 134283265, 134283265, 65537, 67240961, 135331842, 66561, 134285313, 136380417, 67585,
  134283265, 134283266, 65537, 134283265, 134283265, 65537, 135331841, 135331842, 66561, 67243009, 137428996, 68609,
  134283265, 134283268, 65537, 135331841, 135331844, 66561, 65, 65537, 1, 131137, 65, 134283265, 65537, 131137, 65,
  135331841, 66561, 65, 65537, 65537, 65537, 65537, 65537, 65537, 65537, 67, 65537, 65537, 67241985, 136380423,
  134284289, 135331841, 65537, 67, 65537, 67239937, 134284289, 65537, 1, 134217793, 134217793, 65, 134283265,
  134283265, 65537, 134217793, 134217793, 65, 1, 134217793, 134217793, 134217797, 134217793, 206158561345,
  206158561345, 131137, 66, 135331841, 135331841, 135331847, 135331843, 207366455297, 207366455299, 135331841, 66562,
  65, 65537, 67239937, 134283265, 65537, 65537, 68, 65537, 65537, 65537, 65537, 1, 134217793, 134217793, 65, 65,
  65537, 1, 134283265, 65537, 135331841, 66561, 135331841, 66561, 65, 134217795, 69, 65538, 65, 131137, 201457735,
  137640345602, 131141, 135331841, 134283265, 134283265, 67239939, 134283265, 2, 137642442753, 208440197123,
  136380417, 67241985, 67585, 206293762049, 207366455297, 135331841, 134284289, 66561, 134283265, 134283265, 65537,
  206292713473, 206292713473, 206292713473, 134283265, 134283265, 65537, 134283265, 134283265, 65537, 206292713473,
  206292713473, 206292713473, 134283265, 134283265, 65537, 71, 65537, 65, 131140, 134283265, 131138, 67239938,
  206292648001, 206292648001, 134217793, 201457731, 206294810625, 208440197121, 136380417, 206225670146, 65537, 65,
  65537, 65537, 65537, 1, 201457729, 131137, 131137, 131137, 65, 206292713473, 134283265, 134283265, 134283265, 65537,
  65, 65537, 67, 65537, 206158561345, 131143, 134217797, 206292713473, 134283265, 134283265, 65537, 134283265,
  206292713473, 134283265, 134283265, 134283265, 65537, 206292713473, 134283265, 134283265, 65537, 134283265,
  206292713473, 134283265, 134283265, 134283265, 65537, 206292713473, 134283265, 134283265, 65537, 134283265,
  206292713473, 134283265, 134283265, 134283265, 65537, 206292713473, 134283265, 134283265, 65537, 134283265,
  206292713473, 134283265, 134283265, 134283265, 65537, 206292713473, 134283265, 134283265, 68, 131140, 134283265,
  65537, 65537, 135331842, 67240961, 136380417, 134285313, 134283265, 206292713473, 206292713473, 134283265,
  206292713473, 134283265, 134283265, 134283265, 134283265, 206292713473, 206292713473, 134283265, 206292713473,
  134283265, 134283265, 134283265, 65537, 65537, 65, 134217795, 134283265, 70, 67239941, 134283265, 134283265,
  134283265, 134283265, 134283265, 65537, 65537, 65537, 67585, 67585, 65, 67587, 67587, 4, 1208156226, 1181761, 1094,
  4, 134414404, 136314947, 72, 6, 281475178168385, 206292648001, 134217793, 66, 68, 65537, 134217797, 134283265,
  134217793, 134283265, 134217793, 65537, 65537, 65537, 65537, 134283265, 134283265, 1, 134218817, 1089, 134283265,
  65537, 65537, 134283265, 65537, 65537, 134283265, 65537, 134283265, 65537, 65, 65537, 65537, 1, 134217793,
  134217793, 65, 67243009, 67243009, 68609, 1, 206292713479, 134283265, 134283266, 67239937, 134283271, 65537, 65,
  65537, 65537, 65537, 65537, 65537, 67, 65537, 65537, 206158561345, 134217793, 134217797, 206292713473, 134283265,
  134283265, 1, 134283265, 65537, 1, 206158561345, 206158561345, 131137, 134217793, 134217793, 134217797,
  206292648001, 134217793, 65, 1, 134283265, 67239937, 134283271, 134283267, 206292713473, 206292713475, 134283265,
  65538, 65, 65537, 65537, 68, 65537, 65541, 1, 134217793, 134217793, 65, 68, 135266369, 65537, 135266369, 65537,
  65537, 1, 134217793, 65, 134283265, 65537, 131137, 65, 206292648001, 134217793, 206292713473, 134283265, 1,
  206158561345, 206158561347, 134217793, 131137, 201457729, 131137, 65, 137640345601, 137640345601, 67239937,
  134283265, 206292713473, 134283265, 65537, 65537, 65537, 206158561349, 134217797, 134217793, 206292713473,
  134283265, 134283265, 1, 131137, 65, 134283265, 65537, 134283265, 206292713473, 134283265, 134283265, 65537,
  206292713473, 134283265, 206292713473, 206292713473, 134283265, 134283265, 206292713473, 134283265, 65537,
  206292713473, 134283265, 134283265, 134283265, 65537, 134283265, 137640345603, 134283265, 67239938, 65537,
  206292713473, 134283265, 137640345601, 137640345601, 67239937, 134283265, 206292713473, 134283265, 65537,
  137640345602, 67239938, 134283265, 134283265, 65537, 1, 1179716, 1095, 1, 135331841, 135331842, 135331841,
  135331847, 66561, 3, 1179716, 1091, 207366389825, 207366389825, 135266369, 207232303169, 135266373, 65, 2, 67, 71,
  65537, 72, 8, 2115, 65, 65, 1, 65537, 65, 1, 71, 65537]

end Ebcc.Hints
