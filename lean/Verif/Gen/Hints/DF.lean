/-!
Hints for claims of `tools/hints.py`.
-/

set_option maxRecDepth 100000

namespace Ebcc.Hints

def dfenergy_LCCD : List Nat := [
  1, 65537, 134283265, 67108993, 1, 1, 2, 2, 66, 66, 67239937, 67239937]

def dfamps_LCCD : List Nat := [
  65537, 1, 65537, 65537, 1, 1, 65537, 67108994, 65537, 134283265, 65537, 65537, 65538, 65537, 134283265, 65537,
  134283265, 65537, 134283265, 67108993, 1, 134283266, 134283266, 134283265, 134283265, 134283265, 1, 1, 1, 1, 1, 1,
  65537, 66689, 65, 65537, 67240961, 65, 67108993, 1, 66, 66, 134217793, 134217793, 134283265, 134283265, 134283265,
  134283265, 134283265, 65, 134283265, 65537, 134283265, 65537, 134283265, 65, 65537, 65538]

def dfenergy_LCCSD : List Nat := [
  65537, 1, 1, 1, 67108993, 134283265, 65537, 1, 1, 1, 1, 65, 2, 2, 65538, 65538, 134217793, 134217793]

def dfamps_LCCSD : List Nat := [
  1, 1, 1, 1, 65537, 1, 65537, 65537, 65537, 65537, 65537, 65537, 65537, 65, 65537, 67240961, 67240961, 65537,
  67110018, 65666, 65537, 67239937, 135332865, 1, 66, 66, 67108993, 65537, 134283266, 67108993, 67108993, 1,
  134283266, 134283266, 134283265, 134283265, 67239937, 134283265, 134283265, 134283265, 65537, 67108993, 65537,
  134283265, 65537, 134283265, 65, 134283265, 65537, 134283265, 65538, 134283265, 1, 1, 1, 1, 1, 1, 1, 1, 65, 65,
  134217793, 65537, 65537, 1, 67110018, 67110017, 65537, 1, 65538, 65538, 131137, 134217793, 134217793, 65538, 65538,
  65537, 135331841, 65537, 65537, 66689, 65537, 67108993, 134217793, 134217793, 134217793, 67239937, 134283265,
  134283265, 134283265, 67239937, 134283265, 134283265, 65, 134283265, 65537, 134283265, 65537, 134283265, 65, 65537,
  67239937, 65537, 134283265, 65538, 134283265]

def dfenergy_CCD : List Nat := [
  65537, 1, 67108993, 67108993, 1, 1, 1, 66, 66, 134217793, 134217793]

def dfamps_CCD : List Nat := [
  65537, 1, 1, 1, 65537, 65537, 65537, 65537, 65537, 65537, 65537, 66690, 67110018, 67239937, 67239937, 68288513,
  67239937, 134283265, 137506062529, 137506062529, 206292713473, 206292713473, 65537, 137506062529, 137506062529, 65,
  68157569, 134283265, 65537, 65537, 206292713474, 206292713474, 206292713473, 206292713473, 65537, 67108993,
  67108993, 134283265, 134283265, 65537, 65537, 138715070529, 137640280129, 206292713474, 206292713474, 138714021953,
  138714021953, 65537, 65538, 67108993, 67108993, 69928681473, 68853891073, 1114242, 69928682498, 134283265,
  137640280129, 67108993, 69928681473, 1, 1, 1, 1, 1, 1, 65, 1, 65, 1, 65, 65537, 134217793, 68288513, 66, 66, 66562,
  65, 134283265, 67239937, 67239937, 134218817, 134218818, 65, 65, 67108993, 137506062529, 67108993, 137506062529,
  134217793, 65, 134283265, 206292713473, 206292713473, 206292713473, 206292713473, 65537, 67239937, 68288513, 65,
  67108993, 206292713474, 206292713474, 206292713473, 206292713473, 65537, 68920803457, 137506062529, 65, 135331841,
  134283265, 134283265, 138715070529, 134283265, 137640280129, 206292713474, 206292713474, 138714021953, 138714021953,
  65537, 65537, 65537, 134283265, 65538, 134283265, 68288514, 138715071553, 68853891073, 69928681473]

def dfenergy_CC2 : List Nat := [
  65537, 1, 1, 1, 65537, 65537, 65665, 1114241, 67108993, 134283265, 65, 68853891073, 69928681473, 1, 1, 1, 1, 65537,
  1, 65, 135331841, 134283265, 66, 66, 206158561345, 134217793, 134217793, 65, 69928681473]

def dfamps_CC2 : List Nat := [
  65537, 1, 1, 1, 65537, 65537, 65537, 1, 65537, 65537, 65537, 1, 67108993, 65, 134283265, 138581049345, 134283265,
  134284289, 65, 134283265, 65537, 65537, 65, 211244812599297, 206292713473, 67108993, 137507307521, 135266369,
  137506062529, 65537, 65537, 65537, 65537, 65537, 65537, 65665, 1114241, 142043426914305, 134283265, 65537,
  134283265, 206292713473, 138580000769, 1114241, 142043426848833, 67239937, 68288513, 67240961, 135332865, 65537, 1,
  65665, 65665, 1114241, 66689, 65537, 206292713473, 206292713473, 65537, 67239937, 65537, 137506062529, 65537,
  67108993, 65537, 134283265, 281681202380801, 65538, 134283265, 281681269424129, 281681269358657, 65537, 65537,
  134283265, 134283265, 206292713473, 134283265, 134284289, 206292713473, 206292713473, 1114241, 69927632897,
  217580500728938561, 67240961, 67240961, 134283265, 134283265, 137641328705, 206293696577, 66, 68853892097,
  69928682497, 66, 68853892097, 69928682497, 65665, 68158593, 66561, 206293762049, 137640345601, 1089, 137506062529,
  137506062529, 68853694657, 137507111105, 68288513, 211244812599297, 140943714156545, 1, 1, 1, 1, 1, 1, 1, 1, 65537,
  134217793, 65, 65, 65537, 65, 1, 65537, 138580000769, 1, 135331841, 65, 1, 206225670145, 134283265, 135266369, 65,
  68920934401, 65537, 134283265, 281682343100481, 134217793, 206225539201, 65537, 65, 1, 1, 65537, 134283265, 66, 66,
  134217793, 212480622198849, 65537, 68288513, 212480622198849, 67110017, 69927632897, 134283265, 206292713473,
  134283265, 1114241, 66, 66, 65538, 67239937, 1, 134217793, 134217793, 206158561345, 134217793, 134217793, 65,
  137506062529, 68920803457, 65537, 65537, 65537, 65537, 281681202380801, 134283265, 206292713473, 65538,
  281681269424129, 134283265, 206292713473, 281681269358657, 134283265, 134283265, 134283265, 134284289, 134283265,
  206292713473, 67239937, 206292713473, 206292713473, 360570750836539457, 65, 134283266, 134283265, 137641329729,
  137641328705, 134283265, 137640345601, 137640345601, 67239937, 67239937, 66, 68853892097, 69928682497, 66,
  68853892097, 69928682497, 1089, 137507111105, 68853694657, 211244812599297, 137506062529, 137506062529, 68288513,
  140943714156545]

def dfenergy_CCSD : List Nat := [
  65537, 1, 1, 1, 65537, 65537, 68288513, 67239937, 67108993, 67108993, 65537, 206292713473, 206292713473, 1, 1, 1, 1,
  65, 65537, 1, 1179713, 67108993, 65538, 65538, 137640345601, 67239937, 67239937, 65, 69928681473]

def dfamps_CCSD : List Nat := [
  1, 65537, 1, 1, 65537, 65537, 65537, 65537, 1, 1, 65537, 65537, 134283265, 65537, 65537, 67239937, 68288513,
  67239937, 65, 1, 65537, 67108993, 207366389825, 206292648001, 65537, 1114241, 65665, 207366389825, 65537, 134283265,
  138580000769, 137506258945, 69793349825, 67108994, 67108994, 134283265, 207366389825, 65537, 65537, 65537, 65537,
  65, 206292713473, 206292713473, 67110017, 65665, 134283265, 134283265, 68158593, 65665, 134284289, 67239937,
  206292713473, 206293762049, 134284289, 134284289, 206292714497, 206292714497, 1, 134283265, 206292713473,
  206292713473, 134283265, 65665, 65665, 67110018, 66690, 134283265, 134283265, 134283265, 66561, 135266369,
  207366389825, 206292713473, 211381244657729, 281682343100481, 207366389825, 206292648001, 140943915286529,
  69928681473, 68853891073, 69927632897, 137507307521, 65537, 206293696577, 137640345601, 211381244657729,
  281682209013825, 206293762049, 206293762049, 281681269424129, 281681269424129, 137640281153, 137640281153,
  212480622198849, 281682209013825, 138714021953, 137640280129, 65, 134283265, 69927632897, 69927632897, 137506062529,
  137506062529, 68853694657, 65537, 65537, 65537, 65, 207366390849, 65537, 134283265, 134283265, 206292714497,
  206292714497, 206292713473, 206292713473, 281681269424129, 281681269424129, 206292713473, 206292713473, 65537,
  134283265, 134283265, 206292713473, 206292713473, 206292713473, 206292713473, 281681269424129, 281681202380801,
  206292713473, 206292713473, 281681269424129, 281681269424129, 281681269424129, 281681269424129, 65537,
  142043426848833, 135331841, 69928682497, 71606970089473, 134283265, 65537, 206292713474, 206292713474, 137641328705,
  137641328705, 65666, 65666, 1140981953, 67240129, 1114241, 66689, 65537, 65537, 67239937, 65537, 1, 134283265,
  206292713473, 134283265, 65537, 212481696923777, 134283265, 134283265, 67108993, 65537, 134283265, 206292713473,
  206292713473, 206292713473, 206292713473, 206292713473, 281681269424129, 281681202380801, 206292713473,
  206292713473, 281681269424129, 281681269424129, 281681269424129, 281681269424129, 65538, 134283265, 206292713473,
  206292713473, 206292713473, 206292713473, 206292713473, 281681269424129, 281681269424129, 206292713473,
  206292713473, 281681270472705, 281681270472705, 281681269424129, 281681269424129, 206292713473, 281681269424129,
  206292713473, 281681269358657, 281681269424129, 138715070529, 137640280129, 206292714497, 206292714497,
  206292713473, 206292713473, 281681269424129, 281681269424129, 206292713473, 206292713473, 206292714497,
  206292713474, 206292713474, 138714021953, 138714021953, 134283265, 65537, 134283265, 134284289, 65537, 134283265,
  206292714497, 206292713473, 67108993, 67108993, 69928681473, 68853891073, 1114242, 69928682498, 1140981953,
  70506184376577, 134283265, 360570750836539457, 134283265, 206292713473, 134283265, 137640280129, 65537, 67240962,
  138715070529, 67240962, 137641328705, 67108994, 67108994, 68854940673, 137507308545, 66, 69928682497, 68853892097,
  66, 69928682497, 68853892097, 67239937, 135332865, 66561, 135266369, 206292713473, 206292713473, 211381244657729,
  281682343100481, 137640345601, 206293762049, 1, 1, 1, 1, 1, 1, 1, 1, 65, 65537, 65537, 134217793, 65, 1179713,
  67239937, 65, 65, 1, 65537, 67239937, 1, 65538, 135266369, 65538, 65538, 1, 65, 1114241, 65537, 67239937, 67239937,
  67240961, 134217793, 67239937, 68920803457, 137640280129, 138714021953, 67108993, 65, 65537, 65538, 65538,
  138580000769, 67239937, 137640345601, 206292648001, 207366389825, 67108993, 67108993, 66, 66, 66562, 134284289,
  67239937, 134284289, 206292713473, 206292713473, 67108993, 134217793, 134217793, 134218817, 134218818, 206292713473,
  134284289, 67239937, 206292714497, 206292714497, 134284289, 206293762049, 1, 131137, 137506062529, 137506062529,
  68920803457, 134217793, 65537, 65, 67108993, 69928681473, 67108993, 68853891073, 206293696577, 138714021953,
  138714021953, 206293696577, 137506062529, 211244812599297, 211244812599297, 140943714156545, 134283265, 67239937,
  137640345601, 137640345601, 69927632897, 69927632897, 137506062529, 137506062529, 140943714156545, 137507111105,
  68853694657, 211243738595585, 211243738595585, 137507111105, 211245013729281, 67239937, 68920934401, 206225670145,
  206225670145, 138714021953, 65, 281682209013825, 212480622198849, 67108993, 69927632897, 212480622198849,
  138581049345, 135266369, 134283265, 68157569, 65, 65, 1, 65537, 65, 1, 67108993, 134283265, 138715070529, 134283265,
  137640280129, 206292714497, 206292714497, 206292713473, 281681269424129, 281681269424129, 281681269424129,
  206292713473, 206292713473, 206292713474, 206292713474, 137641328705, 137641328705, 134283265, 206292713473,
  206292713473, 206292713473, 281681269424129, 206292713473, 206292713473, 281681269424129, 281681269424129,
  206292713473, 281681202380801, 281681269424129, 281681269424129, 65, 138714087425, 68288513, 67239937, 65537,
  67239937, 65, 65537, 68920934401, 66, 134217793, 67108993, 1114241, 66, 66, 134284289, 67239937, 137640345601,
  67239937, 67239937, 65, 137506062529, 206225670145, 137506062529, 138715071554, 65, 206225670145, 134283265,
  134283265, 206292714497, 134283265, 134284289, 206292713473, 65537, 134283265, 206292713473, 134283265,
  206292713473, 206292713473, 206292713473, 281681269424129, 206292713473, 206292713473, 281681269424129,
  281681269424129, 206292713473, 281681202380801, 281681269424129, 281681269424129, 65538, 134283265, 206292713473,
  134283265, 206292713473, 206292713473, 206292713473, 281681269424129, 206292713473, 206292713473, 281681270472705,
  281681270472705, 206292713473, 281681269424129, 281681269424129, 281681269424129, 134283265, 138715070529,
  134283265, 137640280129, 67239937, 134283265, 206292713473, 206292714497, 206292714497, 206292713473,
  281681269424129, 281681269424129, 281681269424129, 206292713473, 206292713473, 206292714497, 206292713474,
  206292713474, 138714021953, 138714021953, 65537, 65537, 206292713473, 281681269358657, 1114242, 142044501704705,
  1140981953, 145453568940376065, 1114241, 142044500656129, 69928681473, 68853891073, 65537, 67108994, 68854940673,
  67108993, 68854939649, 131137, 206158561345, 206158561345, 134217793, 134217793, 66, 68853892097, 69928682497, 66,
  68853892097, 69928682497, 1089, 137507111105, 68853694657, 211244812599297, 137506062529, 137506062529, 68288513,
  140943714156545]

def dfenergy_QCISD : List Nat := [
  1, 65537, 134283265, 134283265, 1, 1, 1, 66, 66, 134217793, 134217793]

def dfamps_QCISD : List Nat := [
  65537, 1, 65537, 1, 1, 65537, 1, 65537, 65537, 1, 65537, 65537, 65537, 65537, 65537, 67240962, 134284290, 67239937,
  67239937, 1114241, 65665, 67108993, 65, 137506062529, 137506062529, 206292713473, 206292713473, 134283265,
  206292713473, 206292713473, 134283265, 65537, 65537, 134283265, 65537, 65537, 206292713474, 206292713474,
  206292713473, 206292713473, 65537, 65537, 65537, 138715070529, 137640280129, 68157569, 67108993, 65537, 1, 67239937,
  68288513, 65537, 65537, 67239937, 67239937, 67239937, 65537, 67108993, 134283265, 134283265, 134283265, 67108993,
  65537, 65537, 67239937, 138715070529, 137640280129, 65537, 134283265, 65538, 134283265, 206292713474, 206292713474,
  138714021953, 138714021953, 67108993, 67108993, 137506062529, 137506062529, 1114242, 69928682498, 67108993,
  137506062529, 67108993, 69928681473, 65537, 66689, 66689, 134283266, 134283266, 137641329729, 206293697601, 66,
  68853892097, 69928682497, 66, 68853892097, 69928682497, 65665, 68158593, 66561, 206292713473, 206292713473, 1, 1, 1,
  1, 1, 1, 1, 1, 65537, 1, 65537, 1, 65, 65537, 67239937, 65537, 68288513, 66, 66, 66562, 65537, 67240961, 67240962,
  67239937, 67239937, 65, 65, 65, 65, 131137, 134217793, 134283265, 138715070529, 134283265, 137640280129, 67239937,
  67108993, 65537, 137506062529, 137506062529, 69927632897, 69927632897, 67239937, 66, 66, 1, 1, 65537, 65, 1114241,
  65665, 134283265, 138715070529, 134283265, 137640280129, 65, 134283265, 65, 206292713474, 206292713474,
  137641328705, 137641328705, 1179713, 134217793, 134217793, 65538, 65538, 66, 134217793, 1, 65, 206225670145,
  206292713473, 68157569, 65537, 65537, 134283265, 138715070529, 134283265, 137640280129, 67239937, 134283265,
  206292713474, 206292713474, 138714021953, 138714021953, 65537, 134283265, 134283265, 65538, 134283265, 134283265,
  1114242, 69928682497, 69928681473, 68853891073, 65, 134283266, 134283265, 137641329729, 137641328705, 131137,
  134217793, 134217793, 66, 68853892097, 69928682497, 66, 68853892097, 69928682497, 66561, 206292713473, 206292713473]

def dfenergy_DCD : List Nat := [
  1, 65537, 134283265, 134283265, 1, 1, 1, 65538, 65538, 67239937, 67239937]

def dfamps_DCD : List Nat := [
  65537, 1, 1, 65537, 1, 65537, 65537, 65537, 65537, 134284289, 67240961, 67108993, 67239937, 67239937, 67108993,
  206292713473, 206292713473, 206292713473, 206292713473, 206292713473, 65537, 67108993, 65537, 206292713474,
  206292713474, 206292713473, 206292713473, 65537, 65537, 67108993, 134283265, 134283265, 67108993, 65537, 134283266,
  65537, 134283265, 65538, 134283265, 137640280129, 206292713474, 206292713474, 138714021953, 138714021953, 65537,
  65537, 67108993, 137506062529, 67108993, 67108993, 137506062529, 1, 1, 1, 1, 1, 1, 1, 65538, 65538, 1, 134217793,
  134217793, 134218818, 134218817, 65537, 65537, 65, 66, 66, 206292713473, 206292713473, 137506062529, 137506062529,
  206225670145, 134283265, 134217793, 134217793, 134283265, 65, 65, 65, 65537, 206292713474, 206292713474,
  206292713473, 206292713473, 134283265, 134283265, 65537, 66689, 206225670145, 206225670145, 66689, 65537, 65537,
  137640280129, 206292713474, 206292713474, 138714021953, 138714021953, 65537, 134283265, 65538, 134283265, 134283265,
  134283265, 134283265]

def dfenergy_DCSD : List Nat := [
  65537, 1, 1, 1, 65537, 65537, 67239937, 68288513, 134283265, 134283265, 65537, 206292713473, 206292713473, 1, 1, 1,
  1, 65, 65537, 1, 1179713, 67108993, 66, 66, 137640345601, 67239937, 67239937, 65537, 206292713473]

def dfamps_DCSD : List Nat := [
  1, 65537, 1, 65537, 65537, 1, 65537, 1, 65537, 1, 65537, 65537, 134283265, 65537, 65537, 67239937, 65, 1, 67239937,
  68288513, 65537, 137640280129, 137640280129, 138714021953, 134283265, 65537, 65537, 65537, 65537, 207366389825,
  134283266, 134283266, 207366389825, 206292648001, 207366389825, 134283265, 67108993, 137640280129, 67239937,
  68289537, 206292713473, 206292713473, 67108993, 67108993, 65537, 134283265, 66689, 67110017, 67239937, 67239937,
  67108993, 137506062529, 137506062529, 134284289, 67239937, 206292713473, 206293762049, 134284289, 134284289,
  206292714497, 206292714497, 1, 134283265, 134283265, 65537, 65537, 67108993, 137640280129, 137506258945,
  138580000769, 138580000769, 137506062529, 211244812599297, 211244812599297, 140943714156545, 137506258945,
  138580000769, 134283265, 66561, 135266369, 137506062529, 137506062529, 137506062529, 138714021953, 138714021953,
  137640345601, 67108993, 67108993, 211245013729281, 142043426914305, 137507307521, 68853694657, 140943714156545,
  211245013729281, 137507111105, 137507111105, 211243738595585, 211243738595585, 68853892097, 68853892097, 65,
  138714021953, 67108993, 65, 65537, 65537, 65537, 67239937, 68288513, 65537, 134283265, 65537, 1114241, 68853695681,
  142043426848833, 206292714497, 206292714497, 206292713473, 206292713473, 281681269424129, 281681269424129,
  281681269424129, 206292713473, 206292713473, 65537, 65537, 134283265, 206292713474, 206292713474, 137641328705,
  137641328705, 65537, 207366389825, 206292713473, 206292713473, 206292713473, 206292713473, 281681269424129,
  281681202380801, 206292713473, 206292713473, 281681269424129, 281681269424129, 281681269424129, 281681269424129,
  138715071553, 212481695875201, 67240961, 135332865, 65537, 1, 65537, 65665, 65665, 134284289, 67239937, 65,
  137506062529, 137506062529, 65537, 67239937, 134283265, 206292713473, 65537, 134283266, 212481695875201, 134283265,
  134283265, 67108993, 206292713473, 281681269424129, 206292713473, 281681269358657, 65537, 134283265, 134283265,
  206292713473, 206292713473, 206292713473, 206292713473, 206292713473, 281681269424129, 281681202380801,
  206292713473, 206292713473, 281681269424129, 281681269424129, 281681269424129, 281681269424129, 65538, 134283265,
  134283265, 206292713473, 206292713473, 206292713473, 206292713473, 206292713473, 281681269424129, 281681269424129,
  206292713473, 206292713473, 281681270472705, 281681270472705, 281681269424129, 281681269424129, 206292714497,
  206292714497, 206292713473, 206292713473, 281681269424129, 281681269424129, 281681269424129, 206292713473,
  206292713473, 206292714497, 137640280129, 206292713474, 206292713474, 138714021953, 138714021953, 206292714497,
  206292713473, 134283265, 65537, 134283265, 134284289, 65537, 134283265, 134283265, 206292713473, 281681269424129,
  360570750836539457, 134283265, 137640280129, 67108993, 67108993, 137506062529, 66689, 66689, 67108993, 67108993,
  68854939649, 137507307521, 66, 68853892097, 69928682497, 66, 68853892097, 69928682497, 67239937, 135332865, 66561,
  206293762049, 137640345601, 66561, 206292713473, 206292713473, 206293762049, 137640345601, 135266369,
  281682343100481, 211381244657729, 1, 1, 1, 1, 1, 1, 1, 1, 65, 65537, 134217793, 65537, 67239937, 1179713, 65537, 65,
  67239937, 65537, 1, 65537, 1, 65538, 1089, 66, 1114241, 1, 134283265, 206225670145, 138580000769, 137506258945,
  1114241, 66, 66, 65, 134217793, 67239937, 67240961, 67239937, 66, 66, 134284289, 67239937, 206292648001,
  207366389825, 207366389825, 134217793, 206158561345, 65537, 66, 66, 65537, 206292713473, 206292713473, 67239937,
  134284289, 134284289, 65, 68920803457, 134283265, 1, 137506062529, 137506062529, 206292713473, 67239937, 134284289,
  206292714497, 206292714497, 134284289, 206293762049, 134283265, 134218818, 134218817, 134217793, 134217793, 65,
  134217793, 65, 65537, 67108993, 206292713473, 281682343100481, 211381244657729, 281682343100481, 131137,
  206158561345, 134217793, 134217793, 138714021953, 206293696577, 206293696577, 138714021953, 68157569,
  212480622198849, 138714021953, 134217793, 206225539201, 68920803457, 68920803457, 134283265, 65537, 211245013729281,
  142043426914305, 140943714156545, 68853694657, 137507111105, 211243738595585, 211243738595585, 137507111105,
  211245013729281, 69927632897, 68853694657, 137506062529, 137506062529, 138714021953, 138714021953, 68920803457,
  207367438401, 135266369, 67108993, 65537, 1, 67108993, 1, 65537, 65537, 206225539201, 206292714497, 206292714497,
  206292713473, 281681269424129, 281681269424129, 281681269424129, 206292713473, 206292713473, 65537, 138714087425,
  65537, 65537, 134283265, 206292713473, 206292713473, 206292713473, 281681269424129, 206292713473, 206292713473,
  281681269424129, 281681269424129, 206292713473, 281681202380801, 281681269424129, 281681269424129, 206292713474,
  206292713474, 137641328705, 137641328705, 67108993, 1114241, 66, 66, 134284289, 67239937, 137640345601, 67239937,
  67239937, 65, 137506062529, 66, 134217793, 68920803457, 68920803457, 68920803457, 65, 65537, 134283265,
  206292713473, 134283265, 206292713473, 206292713473, 206292713473, 281681269424129, 206292713473, 206292713473,
  281681269424129, 281681269424129, 206292713473, 281681202380801, 281681269424129, 281681269424129, 65538, 134283265,
  206292713473, 134283265, 206292713473, 206292713473, 206292713473, 281681269424129, 206292713473, 206292713473,
  281681270472705, 281681270472705, 206292713473, 281681269424129, 281681269424129, 281681269424129, 206292713473,
  281681269358657, 134283265, 67239937, 206292713473, 134283265, 134283265, 206292714497, 206292714497, 206292713473,
  281681269424129, 281681269424129, 281681269424129, 206292713473, 206292713473, 206292714497, 137640280129,
  206292713474, 206292713474, 138714021953, 138714021953, 134283265, 134283265, 206292714497, 134283265, 134284289,
  206292713473, 65537, 65537, 68288514, 138714021953, 212481696989249, 289709219358376065, 68158593, 212344525291585,
  65537, 134283265, 134283266, 137641328705, 137641329729, 131137, 206158561345, 206158561345, 134217793, 134217793,
  65538, 65538, 137640281153, 137640281153, 138715071553, 138715071553, 1089, 137507111105, 68853694657,
  211244812599297, 137506062529, 137506062529, 68288513, 140943714156545]

def dflams_CCD : List Nat := [
  1, 1, 65537, 65537, 1, 1, 65537, 65537, 1, 1, 65, 65, 66561, 66561, 1, 68157569, 1, 1, 1, 1, 65537, 65537, 65537,
  65537, 1090, 66, 66, 65, 66689, 66690, 134283266, 134283266, 68920934401, 131137, 131137, 134283265, 68854939650,
  68854939649, 68854939649, 68853891073, 68853891073, 68853891073, 68921982977, 68921982977, 68920934401, 68920934401,
  65, 134284290, 206292713473, 201457730, 201457729, 201457729, 201457730, 206292713473, 134283265, 134283265,
  206225670145, 206225670145, 206292713473, 206292713473, 66561, 206292713473, 206292713473, 207366455297,
  207366455297, 65537, 134283265, 134283265, 66562, 134283265, 201457729, 68854940673, 66561, 65537, 134217793,
  206225670146, 206225670145, 206225670145, 206292714497, 206292714497, 206292714497, 206292714497, 134283266,
  134283266, 134217793, 206225670146, 206225670145, 206225670145, 206292714497, 206292714497, 206292714497,
  206292714497, 134283266, 134283266, 65537, 134217793, 206225670146, 65537, 134217793, 206225670146, 206292713473,
  206292713473, 206292713473, 206292713473, 206292713473, 206292713473, 207366455297, 207366455297, 206292714497,
  206292714497, 206226718721, 206226718721, 206292714497, 206292714497, 206292714497, 206292714497, 1, 1, 1, 1, 1, 1,
  1, 1, 1, 1, 1, 66, 66, 65, 1, 65538, 65537, 1090, 66, 65, 1089, 1089, 1, 1, 1, 135331841, 65, 66, 66, 67239937,
  67239937, 67240961, 67240961, 65537, 65537, 65537, 134283266, 134283266, 65537, 134283266, 134283266, 66562,
  67239937, 67239937, 67240961, 67240962, 206292648001, 206292648001, 206292648001, 206292648001, 68854939650,
  68854939649, 68854939649, 67108993, 137506258945, 137506258945, 67108993, 137506258945, 137506258945, 131137, 65,
  134284290, 206292713473, 201457729, 201457730, 201457729, 201457730, 206292713473, 206292713473, 206292713473,
  206292713473, 206292713473, 206292713473, 206292713473, 134283265, 206292713473, 206292713473, 134283265,
  206292713473, 206292713473, 65, 134283265, 206292713473, 206292713473, 207366455297, 207366455297, 66561, 65537, 65,
  207233287298, 1090, 134217794, 134217793, 206225670146, 206225670145, 206225670145, 134283266, 206292714497,
  206292714497, 134283266, 206292714497, 206292714497, 134217793, 206225670146, 206225670145, 206225670145, 134283266,
  206292714497, 206292714497, 134283266, 206292714497, 206292714497, 65537, 134217793, 206225670146, 65537, 134217793,
  206225670146, 206226718721, 206226718721, 206292714497, 206292714497, 206292714497, 206292714497, 206292714497,
  206292714497, 206292713473, 206292713473, 206292713473, 206292713473, 206292713473, 206292713473, 207366455297,
  207366455297, 66561, 65537, 134284290, 206225670145]

def dflams_CC2 : List Nat := [
  65537, 1, 1, 65537, 65537, 1, 1, 65537, 1, 1, 1, 65537, 65537, 65537, 65537, 65537, 65665, 1114241, 134283265, 65,
  134283265, 134283265, 67108993, 137506062529, 137506062529, 67108993, 65537, 65537, 137506062529, 1089, 68288513,
  65, 67108993, 135331841, 65, 65537, 1, 1, 67239937, 67239937, 65537, 67108993, 137506062529, 67108993, 67239937,
  68288513, 212343451615233, 137506258945, 1, 66562, 65, 68921982977, 206292713473, 206292714497, 132162, 202506305,
  65, 67240961, 134283265, 206226587777, 281544904343553, 134283265, 68921982977, 281612482773185, 135266369,
  207367503873, 135266369, 207367503873, 201457729, 281544904343553, 281543830405313, 207299282049, 134284290,
  206293762049, 206226587777, 206226587777, 281612483821761, 281544904343553, 135462977, 275079364673, 276153041025,
  67110017, 206292713473, 134283265, 65537, 67239937, 65537, 65537, 67239937, 137506258945, 138580000769, 65537,
  134284289, 68288513, 65, 65537, 1, 65537, 65537, 134284289, 68288513, 66, 1090, 1, 1, 1, 65537, 66, 1090, 65537,
  67108993, 137640345601, 65, 206292713473, 65, 206292713473, 206292713473, 207366455297, 282780781051905,
  282780781051905, 201457729, 201457729, 202506305, 65537, 65537, 65537, 65538, 134283266, 206292714497, 206292714497,
  206292714497, 134283265, 134283265, 207366389825, 206292648001, 134283265, 134283265, 207366389825, 206292648001,
  135332865, 67239937, 67110017, 1114241, 137507307521, 69927632897, 67239937, 68288513, 65537, 66562, 67240961,
  68289537, 66, 66, 66, 66, 67239937, 67239937, 206292648001, 281681269358657, 134283266, 134283266, 134283266,
  134283266, 137640281153, 137640281153, 138714022977, 138714022977, 67239937, 135332865, 137507307521, 69927632897,
  65537, 65537, 65537, 68289537, 68288513, 66, 66, 67239937, 67108993, 67108993, 1, 66562, 66562, 66562, 66562,
  67108994, 67108994, 67110017, 65665, 65, 137506062529, 137506062529, 65537, 135266369, 65537, 65537, 65, 66, 1,
  67239937, 67239937, 65537, 65537, 135332865, 207366389825, 68289537, 68289537, 68289537, 68289537, 65538, 135266369,
  135266369, 68288513, 68288513, 134283265, 282644282736833, 66562, 65537, 134218817, 135331841, 134283265,
  207366455297, 206225670145, 281612616990785, 134217793, 206225670145, 65537, 134283266, 134283265, 134283265,
  206225670145, 206225670145, 281612616990785, 134217793, 206225670145, 65538, 206225670145, 206292713473,
  206292713473, 281681270472705, 134283266, 206292714497, 134283266, 206292714497, 134217793, 206225670145,
  206292714497, 206292714497, 281612616990785, 281681270472705, 206292713473, 281681269424129, 281681269424129,
  281681269424129, 281681269424129, 206292714497, 206225670145, 65538, 206225670145, 206292713473, 206225670145,
  281681270472705, 134283266, 206292714497, 134283266, 206292714497, 134217793, 206225670145, 206292714497,
  206292714497, 281612616990785, 281681270472705, 207366455297, 282780781051905, 282780781051905, 281681269424129,
  281681269424129, 206292714497, 206225670145, 134217794, 206292713473, 134217794, 207366455297, 206292713473,
  206292713473, 66561, 206292714497, 206226718721, 65537, 206292714497, 206292714497, 134218817, 281612616990785, 2,
  134283266, 134217794, 134283266, 134283265, 206293762049, 281681269424129, 206293762050, 281681269425153,
  281681269425153, 281681269425153, 281681269424129, 281681269424129, 206292714498, 206226718722, 281681269425153,
  281681269425153, 206292714498, 206226718721, 281681269424129, 281681269425153, 206293763073, 206225670145,
  206226719745, 206293763073, 281613690798081, 281682344149057, 69994677249, 69994677249, 69994677249, 69994677249,
  142113154072577, 142113154072577, 206225540225, 207233286273, 134217793, 207232237697, 207232237697, 207232237697,
  207232237697, 281682343165953, 360570750903648257, 281682343100481, 360570750836539457, 206226718721, 206226718722,
  206292714498, 206292714498, 281681269425153, 281681269425153, 281681269424129, 281681269425153, 206225670145,
  206293763073, 281613690798081, 281682344149057, 134217793, 282574555644033, 282574555644033, 69927633921,
  69927633921, 140944990076929, 216454601895903233, 140944990076929, 216454601895903233, 140943916335105,
  140943916335105, 140943916335105, 140943916335105, 68920935426, 68920935426, 141012568702977, 141012568702977,
  141012568702977, 141012568702977, 207233286273, 207233286273, 282575630368961, 282575630368961, 207232238722,
  207232238722, 68853892097, 69927633921, 69927633921, 68920935425, 69994677249, 69994677249, 67240961,
  140943916335105, 140943916335105, 68853892097, 68853892097, 140943916335105, 140944990076929, 140944990076929,
  134284289, 141012568702977, 141012568702977, 68920935425, 68920935425, 141012568702977, 141012568702977,
  141012568702977, 206158496897, 206226588801, 206158496897, 206226588801, 206158496897, 206226588801, 65666, 66690,
  66, 201458753, 135462977, 67240961, 67240961, 67240961, 70643824590849, 70643824459905, 70643824459905,
  70576244785281, 70576244785281, 70576244785281, 65538, 206292713474, 206292713473, 206226718721, 206292714497,
  134283265, 281681269424129, 281682343100481, 1, 1, 1, 1, 1, 1, 1, 1, 1, 1, 65, 65537, 67239937, 135331841, 65,
  65537, 65537, 65537, 1, 1, 1, 65665, 68920803457, 1, 134217793, 137506062529, 137506062529, 134218817, 134218817,
  68920934401, 68920934401, 65, 65, 132161, 132161, 1, 65537, 65, 1, 65, 65538, 66562, 65538, 66562, 67239937, 65,
  67239937, 65, 131137, 134218817, 65537, 134217793, 65, 134218817, 1, 65537, 65537, 66, 66, 68920803457, 135331841,
  137506062529, 212343451615233, 1, 68288513, 65537, 65537, 65537, 65537, 1, 70576244785281, 68921982977,
  206226718721, 281681269424129, 281682343100481, 70643824590849, 70576244785281, 201457729, 134283265, 134283265,
  206292648001, 206292648001, 206292648001, 206292648001, 281681135272001, 281681135272001, 134283265, 206292713473,
  69994677249, 137506258945, 201457729, 67239937, 281544904343553, 206226587777, 134283265, 201458753, 65, 67240961,
  131137, 201457729, 134283265, 206293762049, 131137, 65537, 134217793, 137506258945, 138580000769, 65537, 134217793,
  66562, 134283265, 68288513, 1, 66562, 134283265, 68288513, 65537, 1, 1, 1, 65, 66, 1, 135266369, 65538, 135266369,
  135266369, 68288513, 68288513, 66, 66, 65538, 65538, 68289537, 68288513, 66, 66, 67239937, 67108993, 67108993,
  135266369, 65537, 66562, 65537, 65, 65, 66, 66, 1090, 1, 68289537, 68288513, 66, 66, 67239937, 67108993, 67108993,
  65, 66562, 137640345601, 65, 134283265, 134283265, 206292713473, 206292713473, 206292713473, 206292713473,
  281681269424129, 281681269424129, 207366455297, 282780781051905, 282780781051905, 201457729, 201457729, 65537,
  201457729, 134284289, 134284289, 65537, 65538, 134283265, 206292713473, 206292713473, 281681269424129, 134283266,
  206292648001, 206292714497, 281681269358657, 206292714497, 206292714497, 206292713473, 206292713473, 66690,
  138580001793, 66690, 138580001793, 65538, 134283265, 134218817, 206225670145, 134218817, 206225670145, 1114241,
  69927632897, 69927632897, 134284289, 66690, 138580001793, 66690, 138580001793, 65538, 134283265, 134218817,
  206225670145, 134218817, 206225670145, 68288513, 138714021953, 138714021953, 134284289, 67239937, 67239937, 65537,
  206292713473, 206292713473, 65, 65, 132161, 132161, 131138, 131138, 131138, 131138, 67240961, 67240961,
  206225539201, 206225539201, 134217793, 134217793, 66, 131137, 132161, 135266369, 135266369, 135266369, 135266369,
  135266369, 207300329601, 207299282049, 207299282049, 135266369, 207300329601, 207299282049, 207299282049, 134217794,
  134217794, 206158561345, 206158561345, 206158561345, 206158561345, 135266370, 207300461569, 135266370, 207300461569,
  142112079216705, 142112079216705, 137641394177, 137641394177, 65537, 137640345601, 137640345601, 67239937, 67239937,
  137640345601, 137640345601, 137640345601, 67239937, 67239937, 67239937, 67239937, 68288513, 68288513, 65537, 65,
  206158561345, 206158561345, 134217793, 134217793, 206158561345, 206159609921, 206159609921, 67239937, 67240961,
  67240961, 134283265, 142044501639233, 1090, 66561, 65537, 65537, 135331841, 134283265, 134218817, 207366455297,
  206225670145, 281612616990785, 134217793, 206225670145, 65537, 134283265, 134283265, 134283266, 206225670145,
  206225670145, 281612616990785, 134217793, 206225670145, 65538, 206225670145, 206292713473, 206292713473,
  281612616990785, 134217793, 206225670145, 134283266, 134283266, 206292714497, 206292714497, 206292714497,
  206292714497, 281681270472705, 281681270472705, 206292713473, 281681269424129, 281681269424129, 281681269424129,
  281681269424129, 206292714497, 206225670145, 65538, 206225670145, 206292713473, 206225670145, 281612616990785,
  134217793, 206225670145, 134283266, 134283266, 206292714497, 206292714497, 206292714497, 206292714497,
  281681270472705, 281681270472705, 207366455297, 282780781051905, 282780781051905, 281681269424129, 281681269424129,
  206292714497, 206225670145, 134217794, 206292713473, 134217794, 206292713473, 206292713473, 207366455297,
  206292714497, 206226718721, 206292714497, 206292714497, 134218817, 281681269358657, 2, 206293762049, 134283266,
  134283265, 206293762049, 281682343165953, 281681269424129, 360570750903648257, 206293762050, 281682343100481,
  281681269425153, 360570750836539457, 281681269425153, 281681269425153, 281681269424129, 281681269424129,
  206226718722, 281681269425153, 206226718721, 281681269424129, 134283266, 206292713473, 206292714498,
  281681269425153, 206292714498, 281681269425153, 206293763073, 281682343165953, 281682343100481, 202506305,
  135462978, 275079365697, 135462977, 275079364673, 131138, 201457729, 201458754, 275079365697, 201458754,
  275079365697, 202507329, 276153106497, 276153041025, 67108993, 67108993, 137506258945, 137506258945, 138580000769,
  138580000769, 138580000769, 138580000769, 138580000769, 138580000769, 212343451615233, 212343451615233,
  138580000769, 138580000769, 67108993, 137506258945, 137506259969, 137506259969, 137506259969, 137506259969,
  137506259969, 137506259969, 211243941036033, 211243941036033, 211243941036033, 137506259969, 211243941036033,
  211243941036033, 211243941036033, 137506259969, 137506259969, 211243941036033, 211243941036033, 211243941036033,
  211243941036033, 137506259969, 211243941036033, 137506259969, 211243941036033, 288441827189653505,
  288441827189653505, 211243941036033, 211243941036033, 67240961, 211243941036033, 211243941036033, 137506259969,
  137506259969, 211243941036033, 211243941036033, 211243941036033, 137506259969, 137506259969, 137506259969,
  206292649025, 206292649025, 206292649025, 134283266, 134218817, 281681136320577, 281681136320577, 206292649025,
  206292649025, 281681136320577, 281681136320577, 281681136320577, 206292649025, 206292649025, 206292649025, 67240961,
  67240961, 67240961, 70643824590849, 70643824459905, 70643824459905, 70576244785281, 70576244785281, 70576244785281,
  65538, 206292714497, 206226718721, 206292713473, 206292713474, 134283265, 281681269424129, 281682343100481, 66,
  201458753]

def dflams_CCSD : List Nat := [
  65537, 1, 1, 1, 1, 65537, 65537, 65537, 1, 1, 65537, 1, 65537, 65537, 65537, 65537, 134283265, 1, 1, 1, 68288513,
  67239937, 206292713473, 67108993, 65537, 65538, 66562, 134283266, 134283266, 134283265, 135331841, 134283265, 65537,
  134283266, 134283266, 134283265, 68157569, 206292713473, 206292713473, 134283265, 65537, 65537, 67239938, 65, 66,
  66689, 66690, 134284289, 134283265, 134283265, 135331841, 65537, 1, 1, 65537, 134283265, 134283265, 134283265,
  67239937, 67239937, 65537, 134283265, 68288513, 67239937, 68853694657, 142043426914305, 134283265, 206292648001,
  68288513, 65538, 66562, 65, 134284289, 201457729, 206226587777, 206226587777, 206226587777, 68920934401,
  68920934401, 65, 206292713474, 206292713473, 134283265, 206292714497, 206292713474, 206292713473, 68921982977,
  132162, 202506305, 201457729, 206226587777, 206226587777, 281612482773185, 1114241, 1114241, 1276248129, 1276248129,
  1275199554, 1275199554, 1275199554, 1275199554, 1275199554, 1275199554, 206292713473, 281544904343553,
  281612483821761, 206226718721, 281682343100481, 281681269424129, 70576244785281, 70575171174401, 69994677249,
  67240961, 65, 131137, 206226587777, 134283265, 134284290, 206293762049, 206292713473, 201458753, 281544904343553,
  65537, 138580000769, 137506258945, 206292714497, 281681269358657, 1, 65537, 134284289, 68288513, 65, 65537,
  67239937, 65537, 1, 1, 65537, 65, 138714021953, 65537, 67239937, 65537, 67239937, 134284289, 68288513, 65537, 65537,
  67108993, 1, 65537, 206293762049, 206225670145, 206225670145, 206292713473, 206292713473, 206292713473,
  206292713473, 206292713473, 207366455297, 207366455297, 207366455297, 65, 206292713473, 206292713473, 207366455297,
  282780781051905, 282780781051905, 201457729, 201457729, 65537, 134283266, 134283266, 134284289, 67239937, 65,
  137506062529, 137506062529, 65537, 65537, 65537, 65537, 65538, 134283266, 206292648001, 206292714497,
  281681269358657, 206292714497, 206292714497, 67108994, 67108994, 138580001793, 137506259969, 67108994, 67108994,
  138580001793, 137506259969, 67239937, 135332865, 67110017, 1114241, 137507307521, 69927632897, 1, 1090, 1090, 1090,
  1090, 65538, 65537, 65537, 207366389825, 135267393, 135267393, 135267393, 135267393, 65537, 135267393, 135266369,
  65538, 65538, 134217793, 134283265, 134283265, 65537, 134283265, 134283265, 207366389825, 206292648001, 67108993,
  67108993, 138580000769, 137506258945, 67239937, 135332865, 137507307521, 69927632897, 65537, 65537, 66562,
  134283265, 135266369, 65537, 65, 66, 135332865, 135266369, 135266369, 135266369, 135266369, 68288513, 67239937,
  65538, 65538, 66, 66, 67239937, 67239937, 65537, 1, 134217793, 134217793, 68289537, 67240961, 134283265, 1179713,
  66562, 206159545473, 142113154007105, 65537, 134218817, 135331841, 134283265, 207366455297, 206225670145,
  281612616990785, 134217793, 206225670145, 206225670146, 65537, 134283266, 134283265, 134283265, 206225670145,
  206225670145, 281612616990785, 134217793, 206225670145, 206225670146, 65538, 206225670145, 206292713473,
  206292713473, 281681270472705, 134283266, 134283266, 206292714497, 206292714497, 206225670145, 206225670145,
  206292714497, 206292714497, 206292714497, 206292714497, 134217793, 206225670145, 206225670146, 206292714497,
  206292714497, 281612616990785, 281681270472705, 206292713473, 281681269424129, 281681269424129, 281681269424129,
  281681269424129, 206225670145, 206292714497, 65538, 206225670145, 206292713473, 206225670145, 281681270472705,
  134283266, 134283266, 206292714497, 206292714497, 206225670145, 206225670145, 206292714497, 206292714497,
  206292714497, 206292714497, 134217793, 206225670145, 206225670146, 206292714497, 206292714497, 281612616990785,
  281681270472705, 207366455297, 282780781051905, 282780781051905, 281681269424129, 281681269424129, 206225670145,
  206292714497, 206292713473, 206292713473, 66561, 206292714497, 206292714497, 206292714497, 206226718721,
  206226718721, 206226718721, 65537, 206292714497, 206292714497, 206292714497, 206292714497, 206292714497,
  206292714497, 134217794, 206292713473, 206292713473, 206292713473, 206292713473, 206292713473, 134217794,
  206292713473, 206292713473, 207366455297, 207366455297, 207366455297, 134414402, 206426931329, 2, 131138, 65666,
  131138, 131137, 202506305, 276153106497, 275079364673, 353218244837441, 202506306, 276153041025, 275079365697,
  353218177728641, 275079365697, 275079365697, 275079364673, 275079364673, 201458754, 135462978, 275079365697,
  275079365697, 201458754, 135462977, 275079364673, 275079365697, 134414401, 202507329, 135464001, 202507329,
  207500738625, 276154089601, 69994677249, 69994677249, 69994677249, 69994677249, 142113154072577, 142113154072577,
  69994677249, 68854939649, 134217793, 207232237697, 207232237697, 207232237697, 207232237697, 206292714498,
  206226718722, 281681269425153, 281681269425153, 206292714498, 206226718721, 281681269424129, 281681269425153,
  206225670145, 206293763073, 281613690798081, 281682344149057, 65665, 142043426914305, 142043426914305, 68853892097,
  68853892097, 69927633921, 69927633921, 216454601895903233, 216454601895903233, 140943916335105, 140943916335105,
  140943916335105, 140943916335105, 282644282803329, 282644282803329, 281543697432705, 281543697432705,
  281543697432705, 281543697432705, 69928681473, 69928681473, 68853892097, 68853892097, 142044501639233,
  142044501639233, 206225540225, 206158495873, 207299282049, 207232237697, 207299282049, 207232237697, 134284289,
  141012568702977, 141012568702977, 68920935425, 68920935425, 141012568702977, 141012568702977, 141012568702977,
  67240961, 140943916335105, 140943916335105, 68853892097, 68853892097, 140943916335105, 140944990076929,
  140944990076929, 206158496897, 206226588801, 206158496897, 206226588801, 206158496897, 206226588801, 134217794,
  134218818, 66, 135462977, 201458753, 67240961, 67240961, 67240961, 70576244785281, 70576244785281, 70576244785281,
  70643824590849, 70643824459905, 70643824459905, 65538, 206292713474, 206292713473, 206226718721, 206292714497,
  134283265, 281682343100481, 281681269424129, 1, 1, 1, 1, 1, 1, 1, 1, 1, 1, 65537, 65, 1, 1, 67239937, 135331841, 65,
  65538, 65538, 65537, 1, 65, 1, 65537, 65, 65538, 66562, 65537, 65537, 1, 1, 1, 66, 66, 68157569, 65537, 134283265,
  65537, 65538, 1114242, 1114242, 134217793, 206292713473, 206292713473, 134218817, 134218817, 68920934401,
  68920934401, 65537, 134284289, 134283266, 134283266, 65537, 134284289, 134283266, 134283266, 67239937, 67239937,
  67239937, 67108993, 65537, 206225670145, 65, 67240961, 65537, 134217793, 65537, 66562, 135331841, 134217793,
  134217793, 134217793, 67240961, 67240961, 67240961, 134283265, 134283265, 66562, 135331841, 67239937, 65537,
  134284289, 134283265, 134283265, 67240961, 67240962, 206292713473, 135331841, 65, 1, 65537, 65538, 66562, 1, 1, 65,
  68288513, 65537, 65537, 65537, 282780646899777, 68920803457, 134283265, 206293762049, 68921982977, 134283265, 65537,
  281544904343553, 131137, 206292713473, 134284290, 206293762049, 201458753, 67240961, 206292648001, 206292648001,
  201457729, 137506258945, 137506258945, 137506258945, 70643824590849, 70576244785281, 69994677249, 201457730,
  201457729, 132162, 202506305, 135462977, 275079364673, 276153041025, 70576244785281, 201457729, 206159544449,
  67108993, 137506258945, 137506258945, 137506258945, 67108993, 137506258945, 137506258945, 137506258945,
  137506258945, 137506258945, 211243939987457, 211243939987457, 68921982977, 201458753, 201457729, 201457730,
  201457729, 201457730, 65537, 1, 65537, 1, 1, 1, 65, 134217793, 206292648001, 207366389825, 66562, 134283265,
  68288513, 1, 65, 67239937, 1, 135267393, 135266369, 66, 66, 67239937, 67108993, 67108993, 66, 1090, 65537, 65537,
  65538, 65537, 66562, 135266369, 135267393, 135266369, 66, 66, 134217793, 134283265, 134283265, 65538, 135266369,
  135266369, 135266369, 135266369, 65538, 65538, 66, 66, 66562, 134283265, 68288513, 66562, 67239937, 137640345601,
  66562, 206292713473, 206292713473, 206292713473, 206292713473, 206292713473, 65, 134283265, 206292713473,
  206292713473, 206292713473, 134283265, 206292713473, 206292713473, 206292713473, 206292713473, 206292713473,
  281681269424129, 281681269424129, 207366455297, 282780781051905, 282780781051905, 201457729, 201457729, 65537, 65,
  206292713473, 206292713473, 207366455297, 207366455297, 207366455297, 134284289, 134217793, 134217793, 65,
  137506062529, 137506062529, 65537, 134284289, 134283266, 134283266, 65537, 134284289, 134283266, 134283266,
  67240961, 67240961, 68920934401, 68920934401, 134217793, 134217793, 65538, 134283265, 134284289, 65537, 65538,
  134283265, 206292713473, 134283266, 206292714497, 206292714497, 206292714497, 206292713473, 206292713473, 67240962,
  67240962, 207366390849, 207366390849, 65538, 134283265, 134218817, 206225670145, 134218817, 206225670145, 68288513,
  138714021953, 138714021953, 134284289, 67239937, 68288513, 68288513, 65, 65537, 137640345601, 137640345601,
  67239937, 67239937, 137640345601, 137641394177, 137641394177, 67239937, 67240961, 67240961, 134284289, 135266369,
  135266369, 135266369, 135266369, 135266369, 207300329601, 207299282049, 207299282049, 135266369, 207300329601,
  207299282049, 207299282049, 67239938, 67239938, 137640345601, 137640345601, 137640345601, 137640345601, 68921852033,
  68921852033, 141012567654401, 141012567654401, 67240961, 67240961, 137641394177, 137641394177, 65, 206158561345,
  206158561345, 134217793, 134217793, 206158561345, 206158561345, 206158561345, 67239937, 67239937, 67239937,
  134284289, 206292713473, 281681269424129, 206292648001, 281681269358657, 66690, 138580001793, 66690, 138580001793,
  65538, 134283265, 134218817, 206225670145, 134218817, 206225670145, 68288513, 138714021953, 138714021953, 1090,
  134283265, 65537, 135331841, 134283265, 134218817, 207366455297, 206225670145, 281612616990785, 206225670146,
  134217793, 206225670145, 65537, 134283265, 134283265, 134283266, 206225670145, 206225670145, 281612616990785,
  206225670146, 134217793, 206225670145, 65538, 206225670145, 206292713473, 206292713473, 206225670145,
  281612616990785, 206225670145, 206225670146, 134217793, 206225670145, 134283266, 206292714497, 206292714497,
  206292714497, 134283266, 206292714497, 206292714497, 206292714497, 206292714497, 206292714497, 281681270472705,
  281681270472705, 206292713473, 281681269424129, 281681269424129, 281681269424129, 281681269424129, 206292714497,
  206225670145, 65538, 206225670145, 206292713473, 206225670145, 206225670145, 281612616990785, 206225670145,
  206225670146, 134217793, 206225670145, 134283266, 206292714497, 206292714497, 206292714497, 134283266, 206292714497,
  206292714497, 206292714497, 206292714497, 206292714497, 281681270472705, 281681270472705, 207366455297,
  282780781051905, 282780781051905, 281681269424129, 281681269424129, 206292714497, 206225670145, 206292714497,
  206226718721, 206226718721, 206226718721, 206292714497, 206292714497, 206292714497, 206292714497, 206292714497,
  206292714497, 206292714497, 206292714497, 206292713473, 206292713473, 206292713473, 206292713473, 206292713473,
  206292713473, 206292713473, 207366455297, 207366455297, 207366455297, 66561, 65537, 134217794, 206292713473,
  134217794, 206292713473, 134218817, 206292713474, 281681269358657, 207233287298, 282575630368961, 2, 202506305,
  131138, 131137, 202506305, 275079364673, 202506306, 275079365697, 275079365697, 275079365697, 275079364673,
  275079364673, 135462978, 135462977, 275079365697, 275079364673, 131138, 201457729, 201458754, 275079365697,
  201458754, 275079365697, 202507329, 276153106497, 276153041025, 202506305, 276153106497, 353218244837441,
  276153041025, 353218177728641, 135462978, 275079365697, 135462977, 275079364673, 131138, 201457729, 201458754,
  275079365697, 201458754, 275079365697, 202507329, 276153106497, 276153041025, 134283265, 206292648001, 207366389825,
  207366389825, 134283265, 206292648001, 207366389825, 207366389825, 207366389825, 207366389825, 282780646899777,
  282780646899777, 207366389825, 207366389825, 134283265, 206292648001, 137506259969, 137506259969, 137506259969,
  137506259969, 137506259969, 137506259969, 211243941036033, 211243941036033, 211243941036033, 137506259969,
  211243941036033, 211243941036033, 211243941036033, 137506259969, 137506259969, 211243941036033, 211243941036033,
  211243941036033, 211243941036033, 211243941036033, 211243941036033, 288441827189653505, 288441827189653505,
  137506259969, 137506259969, 211243941036033, 211243941036033, 67240961, 211243941036033, 211243941036033,
  137506259969, 137506259969, 211243941036033, 211243941036033, 211243941036033, 137506259969, 137506259969,
  137506259969, 137506259969, 137506259969, 137506259969, 67108994, 67240961, 211243941036033, 211243941036033,
  137506259969, 137506259969, 211243941036033, 211243941036033, 211243941036033, 137506259969, 137506259969,
  137506259969, 134218817, 281612483821761, 281544904343553, 134218817, 281612484018177, 281544904343553, 134218817,
  281612484018177, 281544904343553, 65538, 206292714497, 206226718721, 206292713473, 206292713474, 134283265,
  281681269424129, 281682343100481, 65538, 206292714497]

end Ebcc.Hints
