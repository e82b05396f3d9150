/-!
Hints for claims of `tools/claims.py`.
-/

set_option maxRecDepth 100000

namespace Ebcc.Hints

def external : List Nat := [
  1, 1, 1, 1, 1, 1, 1, 1, 1, 443082427420488302593, 1, 1, 604979851339061482618945, 1, 65537, 65537, 65537, 66, 69,
  67, 529348056380995409084417, 134283265, 65671, 67108995, 67108993, 67108993, 67108993, 68853694659, 1, 65537,
  65537, 65537, 65537, 66, 66, 65, 65, 529200626684193857929217, 65, 66, 66, 66, 66, 65, 302453320658256270524421,
  302453320658256270524421, 529348056521595458486275, 529348056521595458486275, 713672961848432310397272391681,
  134283265, 134283265, 134283265, 134283265, 67108993, 67108994, 67108994, 67108994, 67108994, 67108993, 67108997,
  67108997, 67108997, 67108997, 67108997, 67108997, 67108997, 67108997, 67108995, 67108995, 67108995, 67108995,
  67108995, 67108995, 67108995, 67108995, 619348104614050465442693185, 619348104614050465442693185,
  619499294056280257401454657, 619499294056280257401454657, 619348325902781018431029313, 67108993, 67108993, 67108993,
  67108993, 67108993, 67108993, 67108993, 137506062533, 137506062533, 137506062531, 137506062531, 137506062529,
  137506062529, 137506062529, 137506062529, 137506062529, 137506062529, 137506062529, 137506062529, 137439019203,
  137439019203, 211243738595585, 1, 1, 1, 1, 1, 1, 1, 1, 1, 1, 1, 1, 65, 65, 65537, 67239937, 65537, 65537, 65, 65537,
  65, 65537, 65, 65, 65539, 65537, 134283266, 67585, 67585, 69, 65537, 201457731, 134283271, 65537, 131141,
  68719673477, 131137, 134217793, 131140, 3138, 65666, 67239941, 134283266, 67239937, 137506258945, 67239937,
  67239939, 67239941, 134283266, 65537, 65538, 65538, 135331841, 207366455297, 135331841, 134284289, 135331841,
  137640345602, 137640345601, 131140, 136380417, 136380417, 65, 206225670148, 65539, 67585, 65, 2113, 65666, 2113,
  65666, 1, 65539, 134283265, 134283265, 134283265, 134283265, 134283265, 206292713473, 134283265, 134283265,
  134283265, 206292713473, 134283265, 65537, 134283265, 134283265, 65537, 134283265, 134283265, 65537, 134283265,
  65537, 134283265, 206292713473, 134283265, 67239939, 134283265, 206292713473, 65537, 65537, 66561, 66561,
  206292713473, 206292713473, 206292713473, 1093, 65671, 1179713, 206158495875, 1275199553, 68988108931, 2113, 65666,
  65, 66, 65537, 134283266, 2115, 65668, 65, 131140, 65538, 134283265, 67239941, 67239937, 137640345601,
  281681269424129, 1, 134283265, 1, 206292713473, 206292713475, 288441619890634753, 206292648001, 360569651459063809,
  211243738857473, 281681269426177, 281681269426177, 211243738857473, 281681269424129, 134283265, 1, 1, 137506258949,
  206292713473, 137506258945, 281681135272001, 141012567588933, 288441620165099521, 360569651461160961,
  360569651461160961, 211243738857473, 360569651458998337, 360569651459063809, 1, 65537, 65537, 65537, 65537, 65537,
  65537, 529348128508820752236545, 134283265, 134283265, 134283265, 134283265, 134283265, 134283265, 206292713473, 1,
  65537, 65537, 65537, 134283265, 65537, 134283265, 65537, 134283265, 65537, 134283265, 134283265, 134283265,
  206292713473, 1, 1, 378084682848752011116545, 1, 65537, 65537, 65537, 65537, 65537, 65537, 65537, 65537,
  529348128508820752236545, 65537, 65537, 65537, 65537, 65537, 65537, 529348128508820752236545,
  529348128508820752236545, 529348128508820752236545, 529348128508820752236545, 713672961996150237300097351681,
  134283265, 134283265, 134283265, 134283265, 134283265, 134283265, 134283265, 134283265, 134283265, 134283265,
  134283265, 134283265, 134283265, 134283265, 134283265, 134283265, 134283265, 134283265, 134283265, 134283265,
  134283265, 134283265, 134283265, 134283265, 134283265, 134283265, 619499367771198958201798657,
  619499367771198958201798657, 619499367771198958201798657, 619499367771198958201798657, 619499367771198958201798657,
  134283265, 134283265, 134283265, 134283265, 134283265, 134283265, 134283265, 206292713473, 206292713473,
  206292713473, 206292713473, 206292713473, 206292713473, 206292713473, 206292713473, 206292713473, 206292713473,
  206292713473, 206292713473, 206292713473, 206292713473, 281681269424129, 1, 134283265, 134283265, 134283265,
  134283265, 134283265, 134283265, 206292713473, 134283265, 134283265, 206292713473, 134283265, 134283265, 134283265,
  134283265, 134283265, 134283265, 206292713473, 206292713473, 134283265, 65537, 134283265, 134283265, 65537,
  134283265, 134283265, 65537, 134283265, 134283265, 65537, 134283265, 65537, 134283265, 206292713473, 65537,
  134283265, 206292713473, 134283265, 134283265, 134283265, 206292713473, 134283265, 134283265, 134283265,
  206292713473, 65537, 65537, 65537, 65537, 65537, 65537, 206292713473, 206292713473, 206292713473, 206292713473,
  65537, 134283265, 134283265, 206292713473, 206292713473, 281681269424129, 65537, 134283265, 1, 1, 1, 1,
  226821669956047243116545, 396450524402380854832052699137, 1, 1, 1, 302452960440723745865729, 1, 1, 1,
  302452960440723745865729, 1, 1, 1, 302452960440723745865729, 1, 1, 1, 302452960440723745865729, 1, 1, 1, 1,
  309712274213158884862918657, 1, 1, 1, 387158715669467623678083073, 1, 1, 1, 387158715669467623678083073, 1, 1, 1,
  387158715669467623678083073, 1, 1, 1, 387158715669467623678083073]

end Ebcc.Hints
