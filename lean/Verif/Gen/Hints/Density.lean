import Verif.Tensor.Identity
/-!
Hints for claims of `tools/claims.py`.
-/

set_option maxRecDepth 100000

namespace Ebcc.Hints

def dent_CCD : List Nat := [
  1, 1, 65, 65, 1, 1, 65537, 65, 65, 134283265, 67108993, 67108993, 65537, 65537, 67108993, 65537, 67108993, 65537,
  67108993, 65537, 67108993, 65537, 69337091, 134283265, 134283265, 134283266, 136315969, 67587, 67108993, 67108993,
  134283265, 134283265, 65, 65537, 65537, 134283265, 134283265, 134283266, 134283265, 65537, 66561, 134283265, 65537,
  134283265, 1, 134283265, 134283265, 134283265, 134283265, 134283265, 134283265, 134283265, 65537, 134283266, 65537,
  1, 134283265, 65537, 65537, 65537, 1, 65537, 1, 65537, 134283265, 65537, 65537, 134283265, 65537, 2, 134283265,
  65537, 134283265, 65, 65537, 1, 134283265, 65537, 65537, 134283265, 65537, 65537, 134283265, 134283265, 134283265,
  134283265, 65537, 65537, 67587, 134283265, 134283266, 134283266, 134283265, 65, 1090, 65537, 134283265, 134283265,
  134283265, 134283265, 65537, 65537, 67585, 134283266, 134283265, 134283266, 134283265, 66561, 66561, 134283265,
  65537, 134283265, 65537, 134283265, 65537, 134283265, 65537, 134283265, 1, 134283265, 134283265, 134283265,
  134283265, 134283265, 134283265, 134284291, 4, 137363521, 137363521, 134283267, 134283267, 136315969, 136314946,
  134283265, 1, 134283265, 134283265, 134283265, 134283265, 134283265, 134283265, 134284289, 2, 134283265, 134283265,
  134283265, 134283265, 134283266, 134284289, 134283265, 65537, 134283266, 65537, 134283265, 65537, 134283265, 65537,
  134283265, 65537, 134283266, 65537, 134283265, 65537, 134283266, 65537, 1, 4, 1, 3, 134283265, 65537, 134283265,
  65537, 134283265, 65537, 134283266, 65537, 65537, 66562, 65537, 65538]

def dent_CC2 : List Nat := [
  1, 1, 1, 1, 65537, 65, 65537, 65, 65, 65, 137363521, 67239937, 67108993, 65537, 65537, 1, 1, 1, 1, 65537, 65537, 65,
  65, 65537, 134283265, 65537, 68288513, 134217793, 65, 65, 65, 67239937, 134283265, 134283265, 137363521, 67587,
  135266369, 137506258945, 67108993, 70385665, 134217793, 134283265, 65537, 65, 69337089, 208306044993, 67108993,
  134283265, 69208193, 140861505601, 67108993, 137506062529, 67108993, 134217793, 67587, 135266369, 65537, 67108993,
  66561, 66561, 65538, 134284289, 208373153793, 134283265, 134283265, 67108993, 67108993, 134283265, 134283265, 65538,
  134284289, 208373153793, 67108993, 67108993, 134283265, 134283265, 65, 65537, 134283265, 134283265, 134283265, 65,
  65537, 134283265, 67108993, 67108993, 65, 65537, 134283265, 134283265, 134283265, 65, 65537, 134283265, 67108993,
  67108993, 65, 65, 134283265, 134283265, 134283265, 134283266, 136315969, 206292713473, 134283265, 206292713473,
  206292713473, 134283265, 206292648001, 206292713473, 134283265, 206292648001, 137506062529, 137506062529,
  137506062529, 137506062529, 206292648001, 206292713473, 206292648001, 206292713473, 134284289, 134284289, 67239939,
  138714021953, 206292713473, 281681135272001, 67585, 65537, 65, 67585, 65537, 65, 65539, 67108993, 137506062529,
  137506062529, 137506062529, 134283265, 206292713473, 206292713473, 206292713473, 65537, 65537, 67108993, 134217793,
  134283265, 134283265, 67108993, 134283265, 69208193, 140861505601, 65539, 67108993, 137506062529, 67108993,
  137506062529, 65537, 65537, 67108993, 134217793, 206292713473, 206292713473, 206292713473, 206292713473, 134283265,
  134283265, 67108993, 134283265, 69208193, 140861505601, 67587, 136380417, 65537, 65537, 134283265, 67108993,
  134283265, 134283265, 134283265, 67108993, 67108993, 134283265, 65537, 134283265, 65537, 66561, 134283265,
  134283265, 134283266, 134283265, 134283265, 134283265, 134283266, 134283265, 65537, 134283266, 206292713474,
  134283265, 206292713473, 65538, 65537, 134283265, 134283265, 206292713474, 206292713474, 206292713473, 206292713473,
  134283265, 134283265, 134283265, 134283265, 134283265, 206292713473, 65537, 65537, 65537, 65537, 134283265,
  206292713473, 206292713473, 206292713473, 134283265, 206292713473, 206292713473, 206292713473, 65537, 65537,
  134283265, 134283265, 134283265, 134283265, 134283265, 134283265, 134283265, 206292713473, 65537, 65537, 65538,
  65537, 65537, 134283265, 134283265, 134283265, 1, 65537, 65537, 134283265, 134283265, 134283265, 134283265,
  134283265, 134283265, 134283265, 134283265, 206292713473, 134283265, 206292713473, 206292713473, 134283265,
  206292713473, 206292713473, 134283265, 206292713473, 206292713473, 134283265, 206292713473, 206292713473,
  206292713473, 206292713473, 206292713473, 206292713473, 206292713473, 206292713473, 206292713473, 134283265,
  134283265, 134283265, 206292713473, 206292713473, 281681269424129, 65537, 65537, 134283265, 134283265, 134283265,
  65537, 65537, 134283265, 134283266, 134283266, 1, 65537, 65537, 134283265, 134283265, 134283265, 65537, 134283265,
  206292713473, 134283265, 134283265, 134283265, 134283265, 134283265, 134283265, 65537, 65537, 134283265,
  206292713473, 134283265, 134283265, 134283265, 134283265, 134283265, 134283265, 65537, 65537, 134283265, 1, 65537,
  65537, 65537, 65537, 1, 65537, 134283265, 65537, 2, 134283265, 65537, 65537, 134283265, 134283265, 65537, 65537,
  134283265, 65537, 65537, 135331841, 134283265, 134283265, 65, 134283265, 134283265, 1, 65537, 65537, 65537,
  134283265, 206292713473, 206292713473, 206292713473, 65537, 134283265, 134283265, 134283265, 65537, 1, 134283265,
  134283265, 134283265, 134283265, 134283265, 134283265, 136380417, 208373153793, 65537, 135331841, 207366455297,
  134283265, 134283265, 134283265, 134283265, 134283265, 134283265, 134283265, 206292713473, 65537, 206292713473,
  206292713473, 65537, 134283265, 1, 134283265, 134283265, 65537, 65537, 1, 65537, 65537, 1, 65537, 65537, 136314945,
  134283265, 134283265, 65537, 134283265, 134283265, 134283265, 65537, 65537, 65537, 134283265, 65537, 65537,
  134283265, 134283265, 134283265, 134283265, 134283265, 134283265, 134283265, 134283265, 67587, 137363521, 65, 1090,
  134283265, 134283266, 134283266, 134283265, 134283265, 134283266, 134283266, 134283265, 65537, 134283265, 65537,
  65537, 134283265, 134283265, 134283265, 134283265, 134283265, 134283265, 134283265, 134283265, 67585, 136380417,
  66561, 66561, 134283266, 134283265, 134283266, 134283265, 134283266, 134283265, 134283266, 134283265, 65537,
  134283265, 206292713473, 134283265, 206292713473, 65537, 65537, 134283265, 134283265, 206292713473, 206292713473,
  206292713473, 206292713473, 134283265, 134283265, 134283265, 134283265, 134283265, 206292713473, 65539, 134283265,
  206292713473, 206292713473, 206292713473, 134283266, 206292713474, 206292713474, 206292713474, 65537, 65538,
  134217793, 134217793, 134283265, 134283265, 134283265, 134283265, 134285313, 207366389825, 65537, 134283265,
  206292713473, 134283265, 206292713473, 65537, 65537, 134283265, 134283265, 206292713473, 206292713473, 206292713473,
  206292713473, 134283265, 134283265, 134283265, 134283265, 134283265, 206292713473, 65537, 134283266, 206292713474,
  206292713474, 206292713474, 134283265, 206292713473, 206292713473, 206292713473, 65538, 65537, 134283265, 134283265,
  134283265, 134283265, 134283265, 134283265, 134283265, 206292713473, 65537, 65537, 65537, 67585, 65537, 65538,
  65537, 65537, 65537, 67585, 65537, 65537, 65537, 65537, 134283265, 134283265, 134283265, 65537, 65537, 134283265,
  134283265, 134283265, 65537, 65537, 134283265, 134283265, 134283265, 65537, 65537, 134283265, 134283265, 134283265,
  65537, 134283265, 206292713473, 206292713473, 206292713473, 134283265, 206292713473, 206292713473, 206292713473,
  65537, 65537, 134283265, 134283265, 134283265, 134283265, 134283265, 134283265, 134283265, 206292713473, 65539,
  134283266, 206292713474, 134283265, 206292713473, 65538, 65537, 134217793, 134217793, 206292713474, 206292713474,
  206292713473, 206292713473, 134283265, 134283265, 134283265, 134283265, 134285313, 207366389825, 65537, 134283265,
  206292713473, 206292713473, 206292713473, 134283265, 206292713473, 206292713473, 206292713473, 65537, 65537,
  134283265, 134283265, 134283265, 134283265, 134283265, 134283265, 134283265, 206292713473, 65537, 134283266,
  206292713474, 134283265, 206292713473, 65538, 65537, 134283265, 134283265, 206292713474, 206292713474, 206292713473,
  206292713473, 134283265, 134283265, 134283265, 134283265, 134283265, 206292713473, 1, 65537, 65537, 134283265,
  134283265, 134283265, 134283265, 134283265, 134283265, 134283265, 134283265, 206292713473, 134283265, 206292713473,
  206292713473, 134283265, 206292713473, 206292713473, 134283265, 206292713473, 206292713473, 134283265, 206292713473,
  206292713473, 206292713473, 206292713473, 206292713473, 206292713473, 206292713473, 206292713473, 206292713473,
  134283265, 134283265, 134283265, 206292713473, 206292713473, 281681269424129, 4, 65, 65, 134285313, 137363521,
  134285313, 137363521, 134283267, 134283267, 136315969, 136314946, 206292713473, 134283265, 206292648001,
  206292713473, 134283265, 206292648001, 206292713473, 134283265, 206292648001, 206292713473, 134283265, 206292648001,
  206292648001, 206292713473, 206292648001, 206292713473, 206292648001, 206292713473, 206292648001, 206292713473,
  134284289, 134284289, 134284291, 207367438401, 208442228801, 284911151874113, 1, 65537, 65537, 134283265, 134283265,
  134283265, 134283265, 134283265, 134283265, 134283265, 134283265, 206292713473, 134283265, 206292713473,
  206292713473, 134283265, 206292713473, 206292713473, 134283265, 206292713473, 206292713473, 134283265, 206292713473,
  206292713473, 206292713473, 206292713473, 206292713473, 206292713473, 206292713473, 206292713473, 206292713473,
  134283265, 134283265, 134283265, 206292713473, 206292713473, 281681269424129, 2, 65537, 65537, 134283265, 134283265,
  134283265, 134283265, 134283265, 134283265, 134283266, 134284289, 206292713473, 134283265, 206292713473,
  206292713473, 134283265, 206292713473, 206292713473, 134283265, 206292713473, 206292713473, 134283265, 206292713473,
  206292713473, 206292713473, 206292713473, 206292713473, 206292713473, 206292713473, 206292713473, 206292713473,
  134284289, 134284289, 134284289, 206293762049, 208440131649, 283811640311809, 65537, 65537, 134283265, 134283265,
  134283265, 65537, 65537, 134283265, 134283266, 134283266, 65537, 65537, 134283265, 134283265, 134283265, 65537,
  65537, 134283265, 134283265, 134283265, 65537, 134283265, 206292713473, 134283265, 134283265, 134283265, 134283265,
  134283265, 134283265, 65538, 134284289, 208373153793, 134283265, 134283265, 134283265, 134283265, 134283265,
  134283265, 65537, 134283265, 206292713473, 134283265, 134283265, 134283265, 134283265, 134283265, 134283265, 65538,
  134284289, 208373153793, 134283265, 134283265, 134283265, 134283265, 134283265, 134283265, 65537, 65537, 65537,
  67585, 65538, 65537, 65537, 65537, 65537, 67585, 65538, 65538, 65537, 65537, 134283265, 134283265, 134283265, 65537,
  65537, 134283265, 134283266, 134283266, 65537, 65537, 134283265, 134283265, 134283265, 65537, 65537, 134283265,
  134283266, 134283266, 1, 4, 1, 3, 65537, 66561, 65537, 65537, 65537, 65537, 134283265, 134283265, 134283265, 65537,
  65537, 134283265, 134283265, 134283265, 65537, 65537, 134283265, 134283265, 134283265, 65537, 65537, 134283265,
  134283266, 134283266, 65537, 134283265, 206292713473, 134283265, 134283265, 134283265, 134283265, 134283265,
  134283265, 65538, 134284289, 208373153793, 134283265, 134283265, 134283265, 134283265, 134283265, 134283265, 65537,
  134283265, 206292713473, 134283265, 134283265, 134283265, 134283265, 134283265, 134283265, 65538, 134284289,
  208373153793, 134283265, 134283265, 134283265, 134283265, 134283265, 134283265, 65537, 66561, 65537, 65537, 65537,
  134283265, 66562, 137363521, 65537, 134283265, 65538, 136314945]

def dent_CCSD : List Nat := [
  1, 1, 1, 1, 65537, 65, 65, 65537, 65537, 65, 70385665, 67239937, 67108993, 65537, 65537, 1, 1, 1, 1, 65537, 65, 65,
  65537, 65, 67239937, 135266369, 65, 134283265, 65537, 65537, 65537, 67239937, 67108993, 137506258945, 70385665,
  134283265, 67587, 135266369, 134283265, 67108993, 67239937, 67108993, 65, 136314945, 65, 139787829249, 67108993,
  67108993, 137506062529, 136382465, 209379721345, 134283265, 134217793, 67108993, 67587, 135266369, 65537, 67108993,
  66561, 66561, 134284289, 208373153793, 65538, 134283265, 134283265, 67108993, 67108993, 67108993, 67108993,
  134284289, 208373153793, 65538, 134283265, 134283265, 67108993, 67108993, 65537, 134283265, 65, 134283265,
  134283265, 65537, 134283265, 65, 67108993, 67108993, 65537, 134283265, 65, 134283265, 134283265, 65537, 134283265,
  65, 67108993, 67108993, 206292713473, 134283265, 206292713473, 206292713473, 134283265, 206292648001, 206292713473,
  134283265, 206292648001, 134283265, 134283265, 134284289, 134284289, 65, 65, 134283265, 134283266, 136315969,
  137506062529, 137506062529, 206292713473, 206292713473, 137506258945, 137506062529, 137506258945, 137506062529,
  134217795, 207232237697, 137506062529, 211243939987457, 67585, 65, 65537, 67585, 65, 65537, 65539, 134283265,
  134283265, 67108993, 67108993, 65537, 65, 67108993, 137506062529, 137506062529, 137506062529, 134283265,
  206292713473, 206292713473, 206292713473, 67108993, 67239937, 136382465, 209379721345, 65539, 134283265, 134283265,
  67108993, 67108993, 65537, 65, 137506062529, 137506062529, 206292713473, 206292713473, 67108993, 67239937, 67108993,
  137506062529, 134283265, 206292713473, 136382465, 209379721345, 67587, 136380417, 65537, 65537, 67108993, 67108993,
  67108993, 67108993, 67108993, 134283265, 67108993, 67108993, 65537, 134283265, 65537, 66561, 134283265, 134283265,
  134283266, 134283265, 134283265, 134283265, 134283266, 134283265, 65537, 134283265, 134283265, 134283265, 134283265,
  65538, 65537, 206292713474, 206292713474, 206292713473, 206292713473, 134283265, 134283265, 134283266, 206292713474,
  134283265, 206292713473, 134283265, 206292713473, 65537, 65537, 65537, 65537, 134283265, 134283265, 134283265,
  134283265, 65537, 65537, 134283265, 206292713473, 206292713473, 206292713473, 134283265, 206292713473, 206292713473,
  206292713473, 134283265, 134283265, 134283265, 206292713473, 65537, 65537, 65538, 65537, 134283265, 65537,
  134283265, 134283265, 1, 206292713473, 134283265, 206292713473, 206292713473, 134283265, 206292713473, 206292713473,
  134283265, 206292713473, 206292713473, 134283265, 206292713473, 134283265, 134283265, 134283265, 134283265,
  134283265, 134283265, 65537, 65537, 134283265, 134283265, 134283265, 134283265, 206292713473, 206292713473,
  206292713473, 206292713473, 206292713473, 206292713473, 206292713473, 206292713473, 134283265, 206292713473,
  206292713473, 281681269424129, 65537, 134283265, 65537, 134283265, 134283265, 65537, 134283265, 65537, 134283266,
  134283266, 1, 65537, 134283265, 65537, 134283265, 134283265, 134283265, 206292713473, 65537, 134283265, 134283265,
  134283265, 134283265, 134283265, 134283265, 65537, 134283265, 206292713473, 65537, 134283265, 134283265, 134283265,
  134283265, 134283265, 134283265, 65537, 65537, 134283265, 65537, 1, 65537, 65537, 65537, 1, 65537, 134283265, 65537,
  2, 134283265, 65537, 65537, 134283265, 134283265, 65537, 65537, 134283265, 65537, 135331841, 65537, 134283265,
  134283265, 134283265, 65, 134283265, 65537, 1, 65537, 65537, 134283265, 134283265, 134283265, 134283265, 65537, 1,
  134283265, 206292713473, 206292713473, 206292713473, 65537, 134283265, 134283265, 134283265, 134283265, 134283265,
  136380417, 208373153793, 135331841, 207366455297, 65537, 134283265, 134283265, 134283265, 134283265, 134283265,
  134283265, 134283265, 65537, 206292713473, 206292713473, 206292713473, 65537, 1, 134283265, 134283265, 134283265,
  65537, 65537, 1, 65537, 65537, 1, 65537, 136314945, 65537, 134283265, 134283265, 65537, 134283265, 134283265,
  134283265, 65537, 65537, 65537, 134283265, 65537, 65537, 134283265, 134283265, 134283265, 134283265, 134283265,
  134283265, 134283265, 134283265, 67587, 137363521, 65, 1090, 134283265, 134283266, 134283266, 134283265, 134283265,
  134283266, 134283266, 134283265, 65537, 134283265, 65537, 65537, 134283265, 134283265, 134283265, 134283265,
  134283265, 134283265, 134283265, 134283265, 67585, 136380417, 66561, 66561, 134283266, 134283265, 134283266,
  134283265, 134283266, 134283265, 134283266, 134283265, 65537, 134283265, 134283265, 134283265, 134283265, 65537,
  65537, 206292713473, 206292713473, 206292713473, 206292713473, 134283265, 134283265, 134283265, 206292713473,
  134283265, 206292713473, 134283265, 206292713473, 65539, 134283265, 134283265, 134283265, 134283265, 65537, 65538,
  134283265, 206292713473, 206292713473, 206292713473, 134283266, 206292713474, 206292713474, 206292713474, 134217793,
  134217793, 134285313, 207366389825, 65537, 134283265, 134283265, 134283265, 134283265, 65537, 65537, 206292713473,
  206292713473, 206292713473, 206292713473, 134283265, 134283265, 134283265, 206292713473, 134283265, 206292713473,
  134283265, 206292713473, 65537, 134283265, 134283265, 134283265, 134283265, 65538, 65537, 134283266, 206292713474,
  206292713474, 206292713474, 134283265, 206292713473, 206292713473, 206292713473, 134283265, 134283265, 134283265,
  206292713473, 65537, 65537, 65537, 67585, 65537, 65538, 65537, 65537, 65537, 67585, 65537, 65537, 65537, 134283265,
  65537, 134283265, 134283265, 65537, 134283265, 65537, 134283265, 134283265, 65537, 134283265, 65537, 134283265,
  134283265, 65537, 134283265, 65537, 134283265, 134283265, 65537, 134283265, 134283265, 134283265, 134283265, 65537,
  65537, 134283265, 206292713473, 206292713473, 206292713473, 134283265, 206292713473, 206292713473, 206292713473,
  134283265, 134283265, 134283265, 206292713473, 65539, 134283265, 134283265, 134283265, 134283265, 65538, 65537,
  206292713474, 206292713474, 206292713473, 206292713473, 134217793, 134217793, 134283266, 206292713474, 134283265,
  206292713473, 134285313, 207366389825, 65537, 134283265, 134283265, 134283265, 134283265, 65537, 65537, 134283265,
  206292713473, 206292713473, 206292713473, 134283265, 206292713473, 206292713473, 206292713473, 134283265, 134283265,
  134283265, 206292713473, 65537, 134283265, 134283265, 134283265, 134283265, 65538, 65537, 206292713474,
  206292713474, 206292713473, 206292713473, 134283265, 134283265, 134283266, 206292713474, 134283265, 206292713473,
  134283265, 206292713473, 1, 206292713473, 134283265, 206292713473, 206292713473, 134283265, 206292713473,
  206292713473, 134283265, 206292713473, 206292713473, 134283265, 206292713473, 134283265, 134283265, 134283265,
  134283265, 134283265, 134283265, 65537, 65537, 134283265, 134283265, 134283265, 134283265, 206292713473,
  206292713473, 206292713473, 206292713473, 206292713473, 206292713473, 206292713473, 206292713473, 134283265,
  206292713473, 206292713473, 281681269424129, 4, 206292713473, 134283265, 206292648001, 206292713473, 134283265,
  206292648001, 206292713473, 134283265, 206292648001, 206292713473, 134283265, 206292648001, 134285313, 137363521,
  134285313, 137363521, 134284289, 134284289, 65, 65, 134283267, 134283267, 136315969, 136314946, 206292648001,
  206292713473, 206292648001, 206292713473, 206292648001, 206292713473, 206292648001, 206292713473, 134284291,
  207367438401, 208442228801, 284911151874113, 1, 206292713473, 134283265, 206292713473, 206292713473, 134283265,
  206292713473, 206292713473, 134283265, 206292713473, 206292713473, 134283265, 206292713473, 134283265, 134283265,
  134283265, 134283265, 134283265, 134283265, 65537, 65537, 134283265, 134283265, 134283265, 134283265, 206292713473,
  206292713473, 206292713473, 206292713473, 206292713473, 206292713473, 206292713473, 206292713473, 134283265,
  206292713473, 206292713473, 281681269424129, 2, 206292713473, 134283265, 206292713473, 206292713473, 134283265,
  206292713473, 206292713473, 134283265, 206292713473, 206292713473, 134283265, 206292713473, 134283265, 134283265,
  134283265, 134283265, 134284289, 134284289, 65537, 65537, 134283265, 134283265, 134283266, 134284289, 206292713473,
  206292713473, 206292713473, 206292713473, 206292713473, 206292713473, 206292713473, 206292713473, 134284289,
  206293762049, 208440131649, 283811640311809, 65537, 134283265, 65537, 134283265, 134283265, 65537, 134283265, 65537,
  134283266, 134283266, 65537, 134283265, 65537, 134283265, 134283265, 65537, 134283265, 65537, 134283265, 134283265,
  134283265, 206292713473, 65537, 134283265, 134283265, 134283265, 134283265, 134283265, 134283265, 134284289,
  208373153793, 65538, 134283265, 134283265, 134283265, 134283265, 134283265, 134283265, 134283265, 206292713473,
  65537, 134283265, 134283265, 134283265, 134283265, 134283265, 134283265, 134284289, 208373153793, 65538, 134283265,
  134283265, 134283265, 134283265, 134283265, 134283265, 65537, 65537, 65537, 67585, 65538, 65537, 65537, 65537,
  65537, 67585, 65538, 65538, 65537, 134283265, 65537, 134283265, 134283265, 65537, 134283265, 65537, 134283266,
  134283266, 65537, 134283265, 65537, 134283265, 134283265, 65537, 134283265, 65537, 134283266, 134283266, 1, 4, 1, 3,
  65537, 66561, 65537, 65537, 65537, 134283265, 65537, 134283265, 134283265, 65537, 134283265, 65537, 134283265,
  134283265, 65537, 134283265, 65537, 134283265, 134283265, 65537, 134283265, 65537, 134283266, 134283266, 134283265,
  206292713473, 65537, 134283265, 134283265, 134283265, 134283265, 134283265, 134283265, 134284289, 208373153793,
  65538, 134283265, 134283265, 134283265, 134283265, 134283265, 134283265, 134283265, 206292713473, 65537, 134283265,
  134283265, 134283265, 134283265, 134283265, 134283265, 134284289, 208373153793, 65538, 134283265, 134283265,
  134283265, 134283265, 134283265, 134283265, 65537, 66561, 65537, 65537, 65537, 134283265, 66562, 137363521, 65537,
  134283265, 65538, 136314945]

def dent_CCSDT : List Nat := [
  1, 1, 1, 1, 1, 1, 1, 1, 65, 65, 1, 65, 65, 65, 65, 65537, 65, 65537, 65, 65537, 65537, 139460673, 65537, 65537,
  135266369, 162529345, 65537, 65537, 65537, 134217793, 134283265, 134283265, 1, 1, 1, 1, 1, 1, 65537, 65537, 65537,
  65537, 65537, 65537, 1, 65, 65537, 65537, 65, 65, 65, 65, 1, 65, 65, 65, 77825, 65, 67587, 65537, 67585, 67585,
  134283265, 136380417, 65537, 77825, 77825, 134283265, 146866177, 146866177, 65, 65, 65537, 65537, 134283265,
  134283265, 134283265, 134283265, 134283265, 134283265, 134283265, 134283265, 65, 134283265, 134283265, 134283265,
  134283265, 65, 65539, 65539, 65, 65537, 65537, 65537, 65537, 65537, 136380417, 134283265, 134283265, 65537,
  137363521, 217969655937, 206292713473, 206292713473, 138412097, 219177549889, 67585, 65537, 137363521, 156237889,
  65537, 65537, 65537, 65537, 134283265, 206292713473, 134283265, 134283265, 134283265, 134283265, 134283265, 65537,
  134283265, 206292713473, 134283265, 134283265, 134283265, 134283265, 134283265, 65537, 134283265, 206292713473,
  134283265, 144703553, 134217793, 134283265, 134283265, 65537, 134283265, 206292713473, 134283265, 134283265,
  134283265, 134283265, 134283265, 65537, 134283265, 206292713473, 134283265, 144703553, 134217793, 134283265,
  134283265, 65, 65, 138412097, 135266369, 162529345, 134217793, 134283265, 134283265, 65537, 65537, 134283265,
  134283265, 134283265, 134283265, 134283265, 134283265, 134283265, 134283265, 206292713473, 206292713473,
  206292713473, 206292713473, 206292713473, 206292713473, 134283265, 134283265, 206292713473, 206292713473,
  206292713473, 206292713473, 206292713473, 206292713473, 134283265, 134283265, 206292713473, 206292713473,
  206292713473, 206292713473, 206292713473, 206292713473, 134283265, 134283265, 206292713473, 206292713473,
  206292713473, 206292713473, 206292713473, 206292713473, 67587, 135266369, 65549, 136380417, 208306044993, 146866177,
  134285313, 207366389825, 134295553, 134285313, 207366389825, 134295553, 65, 65537, 65537, 65537, 65537, 134283265,
  141557825, 134283265, 134283265, 134283265, 134283265, 146866177, 134283265, 134283265, 208440131649, 228707139649,
  135266369, 134283265, 134283265, 206292648001, 206292648001, 134283265, 206292713473, 206292713473, 206292713473,
  206292713473, 134283265, 134283265, 206292713473, 206292713473, 206292713473, 206292713473, 206292713473,
  206292713473, 134283265, 206292713473, 206292713473, 206292713473, 206292713473, 134283265, 134283265, 206292713473,
  206292713473, 206292713473, 206292713473, 206292713473, 206292713473, 134283265, 206292713473, 206292713473,
  206292713473, 206292713473, 134283265, 134283265, 206292713473, 206292713473, 206292713473, 206292713473,
  206292713473, 206292713473, 134283265, 206292713473, 216963088385, 206292713473, 206292713473, 134283265, 134283265,
  206292648001, 206292648001, 206292713473, 206292648001, 206292713473, 206292713473, 134283265, 206292713473,
  216963088385, 206292713473, 206292713473, 134283265, 134283265, 206292648001, 206292648001, 206292713473,
  206292648001, 206292713473, 206292713473, 67108993, 95551489, 134283265, 134283265, 134283265, 134283265, 134283265,
  134283265, 65, 65537, 65537, 65537, 65537, 137363521, 90308609, 65, 65, 65537, 65537, 67108993, 67108993, 65539,
  65549, 134283267, 208440131649, 134283265, 134283265, 206292713473, 281681135272001, 134283265, 134283265,
  134283267, 134283267, 134285313, 134295553, 206292715521, 283880292614209, 134283265, 134283265, 134283265,
  134283265, 134283265, 134283265, 206292713473, 281681269424129, 134283265, 134283265, 134283265, 134283265,
  134283265, 134283265, 206292713473, 281681269424129, 67239937, 70385665, 67108993, 65537, 1, 154000548954113,
  163410149377, 134284289, 134285313, 134283266, 294875341914113, 206293762049, 134283265, 134283265, 134283265,
  281681269424129, 206292713473, 134283265, 134283265, 136314945, 281681269424129, 206292713473, 65537, 135266369,
  137363521, 209379786817, 67587, 135266369, 65549, 134217795, 207232237697, 134295553, 67587, 135266369, 65549,
  136382465, 209379721345, 146878465, 208440131649, 283674201423937, 219177549889, 67585, 65537, 136314945, 146866177,
  134283265, 134283265, 134283265, 134283265, 134283265, 134283265, 134283265, 134283265, 65, 65537, 65537, 65537,
  134283265, 134283265, 134283265, 134283265, 134283265, 134283265, 65537, 65537, 65537, 134283265, 134283265,
  134283265, 134283265, 134283265, 134283265, 65, 65539, 65539, 135266369, 134285313, 134285313, 65, 65538, 65538,
  134283265, 65537, 65537, 134283265, 134283265, 134283265, 206292648001, 65537, 65537, 65537, 134283265, 134283265,
  134283265, 206292713473, 134283265, 134283265, 134283265, 134283265, 134283265, 134283265, 206292713473, 134283265,
  134283265, 134283265, 134283265, 134283265, 134283265, 206292713473, 134283265, 134283265, 134283265, 134283265,
  134283265, 134283265, 206292713473, 134283265, 134283265, 134283265, 134283265, 134283265, 134283265, 206292713473,
  134283265, 134283265, 134283265, 134217793, 159383617, 134284289, 134284289, 134284289, 134284289, 136314945,
  146866177, 206292648001, 206292713473, 136314945, 146866177, 208306044993, 219177549889, 65537, 66561, 66561,
  134283265, 136380417, 134283265, 134283265, 65537, 66561, 65537, 65537, 134283265, 134283265, 134283265, 134283265,
  134283265, 134283265, 134283265, 134283266, 134283266, 134283265, 134283265, 134283265, 134283266, 134283265,
  134283265, 65537, 65537, 134283265, 206292713473, 65537, 134283265, 206292713473, 134283265, 134283265, 134283265,
  134283265, 134283265, 65538, 134283265, 206292713473, 134283265, 134283265, 134283265, 134283265, 134283265,
  134283265, 134283265, 206292713473, 206292713473, 206292713473, 206292713473, 206292713473, 206292713473, 134283266,
  134283266, 206292713474, 206292713474, 206292713474, 206292713474, 206292713474, 206292713474, 134283265,
  206292713473, 134283265, 65537, 65537, 65537, 65537, 65537, 65537, 134283265, 206292713473, 65537, 134283265,
  206292713473, 134283265, 134283265, 134283265, 134283265, 134283265, 65537, 134283265, 206292713473, 134283265,
  134283265, 134283265, 134283265, 134283265, 134283265, 134283265, 206292713473, 206292713473, 206292713473,
  206292713473, 206292713473, 206292713473, 134283265, 134283265, 206292713473, 206292713473, 206292713473,
  206292713473, 206292713473, 206292713473, 134283265, 206292713473, 134283265, 65538, 65537, 65537, 65537, 65537,
  65537, 134283265, 65537, 134283265, 134283265, 134283265, 134283265, 134283265, 1, 65537, 65537, 65537, 134283265,
  206292713473, 206292713473, 206292713473, 206292713473, 134283265, 134283265, 206292713473, 206292713473,
  206292713473, 206292713473, 206292713473, 206292713473, 134283265, 206292713473, 206292713473, 206292713473,
  206292713473, 134283265, 134283265, 206292713473, 206292713473, 206292713473, 206292713473, 206292713473,
  206292713473, 134283265, 206292713473, 206292713473, 206292713473, 206292713473, 134283265, 134283265, 206292713473,
  206292713473, 206292713473, 206292713473, 206292713473, 206292713473, 134283265, 206292713473, 206292713473,
  206292713473, 206292713473, 134283265, 134283265, 206292713473, 206292713473, 206292713473, 206292713473,
  206292713473, 206292713473, 134283265, 134283265, 134283265, 134283265, 134283265, 134283265, 134283265, 134283265,
  134283265, 134283265, 206292713473, 281681269424129, 134283265, 134283265, 134283265, 134283265, 134283265,
  134283265, 206292713473, 281681269424129, 134283265, 134283265, 134283265, 281681269424129, 206292713473, 134283265,
  134283265, 134283265, 281681269424129, 206292713473, 134283265, 206292713473, 134283265, 206292713473, 134283265,
  206292713473, 281681269424129, 206292713473, 65537, 65537, 134283265, 65537, 134283265, 134283265, 134283265,
  134283265, 134283265, 65537, 65537, 134283265, 65537, 134283265, 134283265, 134283266, 134283266, 134283266, 1,
  65537, 65537, 134283265, 65537, 134283265, 134283265, 134283265, 134283265, 134283265, 65537, 134283265, 65537,
  134283265, 134283265, 134283265, 206292713473, 134283265, 134283265, 134283265, 134283265, 134283265, 134283265,
  206292713473, 134283265, 134283265, 134283265, 134283265, 134283265, 206292713473, 206292713473, 65537, 65537,
  65537, 134283265, 65537, 134283265, 134283265, 134283265, 206292713473, 134283265, 134283265, 134283265, 134283265,
  134283265, 134283265, 206292713473, 134283265, 134283265, 134283265, 134283265, 134283265, 206292713473,
  206292713473, 65537, 65537, 65537, 65537, 134283265, 134283265, 134283265, 1, 65537, 65537, 65537, 65537, 65537,
  65537, 1, 65537, 2, 65537, 65537, 134283265, 134283265, 134283265, 134283265, 134283265, 65537, 65537, 65537, 65537,
  134283265, 134283265, 134283265, 65537, 65537, 134283265, 65537, 65537, 136380417, 65537, 135331841, 134283265,
  134283265, 134283265, 134283265, 65, 134283265, 134283265, 134283265, 1, 65537, 65537, 65537, 65537, 65537,
  134283265, 206292713473, 1, 134283265, 219177615361, 134283265, 146866177, 134283265, 134283265, 134283265, 65537,
  134283265, 219177549889, 134283265, 146866177, 134283265, 134283265, 134283265, 65537, 65537, 134283265, 134283265,
  134283265, 134283265, 134283265, 134283265, 134283265, 134283265, 206292713473, 206292713473, 206292713473,
  206292713473, 206292713473, 206292713473, 136380417, 208373153793, 146866177, 65537, 136380417, 65537, 134283265,
  134283265, 134283265, 208440197121, 134283265, 134283265, 134283265, 136380417, 134283265, 134283265, 208440197121,
  134283265, 134283265, 134283265, 135331841, 137428993, 207366455297, 206292713473, 65537, 134283265, 134283265,
  206292713473, 206292713473, 206292713473, 206292713473, 206292713473, 206292713473, 1, 65537, 65537, 134283265,
  134283265, 134283265, 134283265, 134283265, 134283265, 1, 65537, 65537, 65537, 65537, 65537, 65537, 1, 65537, 65537,
  134283265, 65537, 136314945, 146866177, 134283265, 134283265, 134283265, 65537, 65537, 134283265, 134283265,
  134283265, 134283265, 134283265, 134283265, 65537, 65537, 65537, 65537, 65537, 65537, 65537, 134283265, 134283265,
  134283265, 134283265, 134283265, 134283265, 134283265, 134283265, 134283265, 134283265, 134283265, 134283265,
  134283265, 134283265, 134283265, 65, 1090, 77837, 67587, 137363521, 146866177, 146866177, 134283265, 134283265,
  134283266, 134283266, 134283266, 134283266, 134283265, 134283265, 134283265, 134283266, 134283266, 134283265, 65537,
  65537, 65537, 65537, 134283265, 134283265, 134283265, 134283265, 134283265, 134283265, 134283265, 134283265,
  134283265, 134283265, 134283265, 134283265, 134283265, 134283265, 134283265, 66561, 66561, 77825, 67585, 136380417,
  146866177, 146866177, 134283265, 134283265, 134283265, 134283265, 134283266, 134283266, 134283266, 134283266,
  134283265, 134283266, 134283265, 134283266, 65537, 65537, 134283265, 206292713473, 65537, 134283265, 206292713473,
  134283265, 134283265, 134283265, 134283265, 134283265, 65537, 134283265, 206292713473, 134283265, 134283265,
  134283265, 134283265, 134283265, 134283265, 134283265, 206292713473, 206292713473, 206292713473, 206292713473,
  206292713473, 206292713473, 134283265, 134283265, 206292713473, 206292713473, 206292713473, 206292713473,
  206292713473, 206292713473, 134283265, 206292713473, 134283265, 65539, 65549, 134283267, 208440131649, 65538,
  134283265, 206292713473, 134283265, 144703553, 134217793, 134283265, 134283265, 65537, 134283265, 206292713473,
  134283265, 143654977, 134217793, 134283265, 134283265, 134283266, 134283266, 206292713474, 206292713474,
  206292713474, 206292713474, 206292713474, 206292713474, 134283265, 134283265, 206292713473, 206292713473,
  206292713473, 206292713473, 206292713473, 206292713473, 134285313, 207366389825, 134295553, 65537, 65537, 134283265,
  206292713473, 65537, 134283265, 206292713473, 134283265, 134283265, 134283265, 134283265, 134283265, 65537,
  134283265, 206292713473, 134283265, 134283265, 134283265, 134283265, 134283265, 134283265, 134283265, 206292713473,
  206292713473, 206292713473, 206292713473, 206292713473, 206292713473, 134283265, 134283265, 206292713473,
  206292713473, 206292713473, 206292713473, 206292713473, 206292713473, 134283265, 206292713473, 134283265, 65537,
  65537, 134283265, 206292713473, 65537, 134283265, 206292713473, 134283265, 134283265, 134283265, 134283265,
  134283265, 65538, 134283265, 206292713473, 134283265, 134283265, 134283265, 134283265, 134283265, 134283265,
  134283265, 206292713473, 206292713473, 206292713473, 206292713473, 206292713473, 206292713473, 134283266, 134283266,
  206292713474, 206292713474, 206292713474, 206292713474, 206292713474, 206292713474, 134283265, 206292713473,
  134283265, 65537, 65537, 65537, 65537, 65538, 65537, 67585, 77825, 65537, 65537, 65537, 65537, 65537, 65537, 67585,
  77825, 65537, 65537, 134283265, 65537, 134283265, 134283265, 134283265, 134283265, 134283265, 65537, 65537,
  134283265, 65537, 134283265, 134283265, 134283265, 134283265, 134283265, 65537, 65537, 134283265, 65537, 134283265,
  134283265, 134283265, 134283265, 134283265, 65537, 65537, 134283265, 65537, 134283265, 134283265, 134283265,
  134283265, 134283265, 65537, 65537, 134283265, 206292713473, 65537, 134283265, 206292713473, 134283265, 134283265,
  134283265, 134283265, 134283265, 65537, 134283265, 206292713473, 134283265, 134283265, 134283265, 134283265,
  134283265, 134283265, 134283265, 206292713473, 206292713473, 206292713473, 206292713473, 206292713473, 206292713473,
  134283265, 134283265, 206292713473, 206292713473, 206292713473, 206292713473, 206292713473, 206292713473, 134283265,
  206292713473, 134283265, 65539, 65549, 134283267, 208440131649, 65537, 134283265, 206292713473, 134283265,
  144703553, 134217793, 134283265, 134283265, 65538, 134283265, 206292713473, 134283265, 143654977, 134217793,
  134283265, 134283265, 134283265, 134283265, 206292713473, 206292713473, 206292713473, 206292713473, 206292713473,
  206292713473, 134283266, 134283266, 206292713474, 206292713474, 206292713474, 206292713474, 206292713474,
  206292713474, 134285313, 207366389825, 134295553, 65537, 65537, 134283265, 206292713473, 65537, 134283265,
  206292713473, 134283265, 134283265, 134283265, 134283265, 134283265, 65537, 134283265, 206292713473, 134283265,
  134283265, 134283265, 134283265, 134283265, 134283265, 134283265, 206292713473, 206292713473, 206292713473,
  206292713473, 206292713473, 206292713473, 134283265, 134283265, 206292713473, 206292713473, 206292713473,
  206292713473, 206292713473, 206292713473, 134283265, 206292713473, 134283265, 65537, 65537, 134283265, 206292713473,
  65537, 134283265, 206292713473, 134283265, 134283265, 134283265, 134283265, 134283265, 65538, 134283265,
  206292713473, 134283265, 134283265, 134283265, 134283265, 134283265, 134283265, 134283265, 206292713473,
  206292713473, 206292713473, 206292713473, 206292713473, 206292713473, 134283266, 134283266, 206292713474,
  206292713474, 206292713474, 206292713474, 206292713474, 206292713474, 134283265, 206292713473, 134283265, 1, 65537,
  65537, 65537, 134283265, 206292713473, 206292713473, 206292713473, 206292713473, 134283265, 134283265, 206292713473,
  206292713473, 206292713473, 206292713473, 206292713473, 206292713473, 134283265, 206292713473, 206292713473,
  206292713473, 206292713473, 134283265, 134283265, 206292713473, 206292713473, 206292713473, 206292713473,
  206292713473, 206292713473, 134283265, 206292713473, 206292713473, 206292713473, 206292713473, 134283265, 134283265,
  206292713473, 206292713473, 206292713473, 206292713473, 206292713473, 206292713473, 134283265, 206292713473,
  206292713473, 206292713473, 206292713473, 134283265, 134283265, 206292713473, 206292713473, 206292713473,
  206292713473, 206292713473, 206292713473, 134283265, 134283265, 134283265, 134283265, 134283265, 134283265,
  134283265, 134283265, 134283265, 134283265, 206292713473, 281681269424129, 134283265, 134283265, 134283265,
  134283265, 134283265, 134283265, 206292713473, 281681269424129, 134283265, 134283265, 134283265, 281681269424129,
  206292713473, 134283265, 134283265, 134283265, 281681269424129, 206292713473, 134283265, 206292713473, 134283265,
  206292713473, 134283265, 206292713473, 281681269424129, 206292713473, 4, 65551, 65, 65, 134283265, 206292713473,
  216963088385, 206292713473, 206292713473, 134283265, 134283265, 206292648001, 206292648001, 206292713473,
  206292648001, 206292713473, 206292713473, 134283265, 206292713473, 216963088385, 206292713473, 206292713473,
  134283265, 134283265, 206292648001, 206292648001, 206292713473, 206292648001, 206292713473, 206292713473, 134283265,
  206292713473, 215889346561, 206292713473, 206292713473, 134283265, 134283265, 206292648001, 206292648001,
  206292713473, 206292648001, 206292713473, 206292713473, 134283265, 206292713473, 215889346561, 206292713473,
  206292713473, 134283265, 134283265, 206292648001, 206292648001, 206292713473, 206292648001, 206292713473,
  206292713473, 134283266, 134285313, 134283266, 134285313, 137363521, 134295553, 134283267, 134283267, 134285313,
  134295553, 206292715521, 283880292614209, 137363521, 134295553, 134283267, 134283267, 134285313, 134295553,
  206292715521, 283880292614209, 134284289, 134285313, 136315969, 294875341914113, 206293762049, 134284289, 134285313,
  136314946, 294875341914113, 206293762049, 134285315, 208442228801, 134284291, 207367438401, 134295554, 208442228801,
  284911151874113, 219190132801, 1, 65537, 65537, 65537, 134283265, 206292713473, 206292713473, 206292713473,
  206292713473, 134283265, 134283265, 206292713473, 206292713473, 206292713473, 206292713473, 206292713473,
  206292713473, 134283265, 206292713473, 206292713473, 206292713473, 206292713473, 134283265, 134283265, 206292713473,
  206292713473, 206292713473, 206292713473, 206292713473, 206292713473, 134283265, 206292713473, 206292713473,
  206292713473, 206292713473, 134283265, 134283265, 206292713473, 206292713473, 206292713473, 206292713473,
  206292713473, 206292713473, 134283265, 206292713473, 206292713473, 206292713473, 206292713473, 134283265, 134283265,
  206292713473, 206292713473, 206292713473, 206292713473, 206292713473, 206292713473, 134283265, 134283265, 134283265,
  134283265, 134283265, 134283265, 134283265, 134283265, 134283265, 134283265, 206292713473, 281681269424129,
  134283265, 134283265, 134283265, 134283265, 134283265, 134283265, 206292713473, 281681269424129, 134283265,
  134283265, 134283265, 281681269424129, 206292713473, 134283265, 134283265, 134283265, 281681269424129, 206292713473,
  134283265, 206292713473, 134283265, 206292713473, 134283265, 206292713473, 281681269424129, 206292713473, 2, 65539,
  65537, 65537, 134283265, 206292713473, 206292713473, 206292713473, 206292713473, 134283265, 134283265, 206292713473,
  206292713473, 206292713473, 206292713473, 206292713473, 206292713473, 134283265, 206292713473, 206292713473,
  206292713473, 206292713473, 134283265, 134283265, 206292713473, 206292713473, 206292713473, 206292713473,
  206292713473, 206292713473, 134283265, 206292713473, 206292713473, 206292713473, 206292713473, 134283265, 134283265,
  206292713473, 206292713473, 206292713473, 206292713473, 206292713473, 206292713473, 134283265, 206292713473,
  206292713473, 206292713473, 206292713473, 134283265, 134283265, 206292713473, 206292713473, 206292713473,
  206292713473, 206292713473, 206292713473, 134283266, 134285313, 134283266, 134285313, 134283265, 134283265,
  134283265, 134283265, 134283265, 134283265, 206292713473, 281681269424129, 134283265, 134283265, 134283265,
  134283265, 134283265, 134283265, 206292713473, 281681269424129, 134284289, 134285313, 134283266, 294875341914113,
  206293762049, 134284289, 134285313, 134284289, 294875341914113, 206293762049, 134285313, 206294810625, 134284289,
  206293762049, 134283266, 208440131649, 283811640311809, 219177549889, 65537, 65537, 134283265, 65537, 134283265,
  134283265, 134283265, 134283265, 134283265, 65537, 65537, 134283265, 65537, 134283265, 134283265, 134283266,
  134283266, 134283266, 65537, 65537, 134283265, 65537, 134283265, 134283265, 134283265, 134283265, 134283265, 65537,
  65537, 134283265, 65537, 134283265, 134283265, 134283265, 134283265, 134283265, 65537, 134283265, 65537, 134283265,
  134283265, 134283265, 206292713473, 134283265, 134283265, 134283265, 134283265, 134283265, 134283265, 206292713473,
  134283265, 134283265, 134283265, 134283265, 134283265, 206292713473, 206292713473, 65539, 134285313, 65538,
  134283265, 134283265, 134283265, 206292713473, 134283265, 134283265, 134283265, 134283265, 134283265, 134283265,
  206292713473, 134283265, 134283265, 134283265, 134284289, 134284289, 208373153793, 219177549889, 65537, 134283265,
  65537, 134283265, 134283265, 134283265, 206292713473, 134283265, 134283265, 134283265, 134283265, 134283265,
  134283265, 206292713473, 134283265, 134283265, 134283265, 134283265, 134283265, 206292713473, 206292713473, 65539,
  134285313, 65538, 134283265, 134283265, 134283265, 206292713473, 134283265, 134283265, 134283265, 134283265,
  134283265, 134283265, 206292713473, 134283265, 134283265, 134283265, 134284289, 134284289, 208373153793,
  219177549889, 65537, 65537, 65537, 65537, 65537, 65538, 67585, 77825, 65537, 65537, 65537, 65537, 65538, 65538,
  67585, 77825, 65537, 65537, 134283265, 65537, 134283265, 134283265, 134283265, 134283265, 134283265, 65537, 65537,
  134283265, 65537, 134283265, 134283265, 134283266, 134283266, 134283266, 65537, 65537, 134283265, 65537, 134283265,
  134283265, 134283265, 134283265, 134283265, 65537, 65537, 134283265, 65537, 134283265, 134283265, 134283266,
  134283266, 134283266, 1, 4, 1, 3, 65537, 65537, 67585, 66561, 65537, 65537, 65537, 65537, 65537, 65537, 134283265,
  65537, 134283265, 134283265, 134283265, 134283265, 134283265, 65537, 65537, 134283265, 65537, 134283265, 134283265,
  134283265, 134283265, 134283265, 65537, 65537, 134283265, 65537, 134283265, 134283265, 134283265, 134283265,
  134283265, 65537, 65537, 134283265, 65537, 134283265, 134283265, 134283266, 134283266, 134283266, 65537, 134283265,
  65537, 134283265, 134283265, 134283265, 206292713473, 134283265, 134283265, 134283265, 134283265, 134283265,
  134283265, 206292713473, 134283265, 134283265, 134283265, 134283265, 134283265, 206292713473, 206292713473, 65539,
  134285313, 65538, 134283265, 134283265, 134283265, 206292713473, 134283265, 134283265, 134283265, 134283265,
  134283265, 134283265, 206292713473, 134283265, 134283265, 134283265, 134284289, 134284289, 208373153793,
  219177549889, 65537, 134283265, 65537, 134283265, 134283265, 134283265, 206292713473, 134283265, 134283265,
  134283265, 134283265, 134283265, 134283265, 206292713473, 134283265, 134283265, 134283265, 134283265, 134283265,
  206292713473, 206292713473, 65539, 134285313, 65538, 134283265, 134283265, 134283265, 206292713473, 134283265,
  134283265, 134283265, 134283265, 134283265, 134283265, 206292713473, 134283265, 134283265, 134283265, 134284289,
  134284289, 208373153793, 219177549889, 65537, 65537, 67585, 66561, 65537, 65537, 65537, 65537, 65537, 65537,
  134283265, 134283265, 134283265, 66562, 67587, 137363521, 136380417, 136380417, 65537, 65537, 134283265, 134283265,
  134283265, 65538, 65539, 136314945, 134283265, 134283265]

def dent_CCSD_S_1_1 : List Nat := [
  1, 1, 1, 1, 1, 1, 1, 1, 1, 1, 1, 1, 1, 1, 1, 65, 65537, 65537, 65, 65537, 65537, 65, 65537, 134217793, 134283265,
  134283265, 65537, 65537, 134217793, 65537, 135266369, 2, 1, 65, 1, 65, 65, 65, 1089, 1, 1, 1, 1, 1, 1, 1, 1, 1, 1,
  1, 1, 1, 1, 1, 65, 67587, 67587, 67587, 67587, 65537, 134283265, 135266369, 136380417, 208306044993, 134285313,
  207366389825, 134285313, 207366389825, 135266369, 134218819, 207233286273, 135266369, 136382465, 209379721345,
  206294810625, 282780646834305, 135266369, 135266369, 134283265, 134283265, 206292648001, 206292713473, 135266369,
  134283265, 134217793, 208306044993, 208373153793, 208373153793, 134283265, 134283265, 134283265, 134283265,
  134217793, 134283265, 134283265, 67585, 67585, 65, 65537, 134217793, 134283265, 67239937, 134284289, 134283266,
  134283266, 134283266, 134283266, 65, 134283265, 134283265, 206292713474, 206292713474, 206292713473, 206292713473,
  206292713473, 206292713473, 206292713473, 206292713473, 206292713473, 206292713473, 206292648001, 206292713473,
  206292648001, 206292713473, 134283265, 206292713473, 206292713473, 134283265, 206292713473, 206292713473, 134283265,
  67108993, 134283265, 136314945, 134283265, 134283265, 134283266, 134283266, 134283265, 134283265, 65, 134283265,
  134283265, 65537, 134283265, 134283265, 134283265, 134283265, 134217793, 134283265, 134283265, 134283265, 134283265,
  134283265, 67108993, 134283266, 134284289, 134283266, 134284289, 134283266, 134283265, 134283265, 134283266,
  134283266, 65, 134283265, 134283265, 65539, 65539, 65537, 134217793, 134283265, 134283265, 134283265, 134283265,
  134283265, 134283265, 134283265, 134217793, 134283265, 134283265, 134217793, 134283265, 134283265, 134283265,
  134217793, 134283265, 65, 65537, 206292713474, 206292713474, 134283266, 134283265, 134283265, 134283265, 134283265,
  206292713473, 206292713473, 134283265, 134283265, 134217793, 134283265, 134283265, 206292713473, 206292713473,
  134283265, 206292713473, 206292713473, 134283265, 206292713473, 206292713473, 134283265, 134283265, 65, 65537,
  65537, 65537, 206292648001, 206292713473, 206292648001, 134283265, 206292648001, 206292713473, 206292648001,
  134283265, 1, 206292713474, 134283266, 65538, 206292713474, 134283266, 65538, 206292713474, 134283266, 65538,
  206292713474, 134283266, 65538, 65, 65537, 65537, 65537, 65537, 1089, 134283265, 134283265, 134283265, 134283265,
  65537, 65537, 65537, 65537, 65, 65537, 65537, 65, 65537, 67108993, 134283265, 134285313, 137363521, 134283267,
  134285313, 137363521, 134283267, 65537, 134283265, 134283265, 1089, 65537, 134283266, 134283266, 134283266,
  134283266, 134283266, 134283266, 134283266, 134283266, 134283266, 134283266, 134283266, 134283266, 67108993,
  134283267, 134283267, 134283265, 134283265, 134283265, 134283265, 65, 65537, 206158561345, 134217793, 206292713473,
  134283265, 206292713473, 134283265, 206292713473, 134283265, 206292713473, 134283265, 206292713473, 134283265,
  206292713473, 134283265, 206292713473, 134283265, 206292713473, 134283265, 206292713473, 134283265, 1, 206292713473,
  206292713473, 206292713473, 134283265, 65537, 206292713473, 206292713473, 206292713473, 134283265, 65537, 65537,
  66561, 66561, 135331841, 65, 65538, 65538, 65537, 134217793, 134283265, 134283265, 134283265, 134283265, 134283265,
  134283265, 134283265, 134283265, 134283265, 134283265, 134283265, 134283265, 134283265, 134283265, 134283265,
  134283265, 134283265, 66562, 66, 65538, 65538, 65538, 65538, 4, 65, 65, 65, 65, 4, 1090, 65537, 134283265,
  134283265, 134283266, 134283265, 134283265, 134283265, 134283265, 134283266, 134283265, 134283265, 134283265,
  134283266, 134283265, 65537, 66561, 65537, 65537, 65538, 134283265, 206292713473, 206292713473, 206292713473,
  134283265, 206292713473, 206292713473, 134283265, 65537, 134283265, 134283265, 134283265, 134283265, 206292713473,
  206292713473, 134283265, 134283265, 134283265, 134283265, 134283265, 206292713473, 206292713473, 134283265,
  206292713473, 134283265, 65537, 206292713473, 134283265, 65537, 65537, 65537, 65537, 134283265, 206292713473,
  206292713474, 206292713474, 206292713473, 206292713473, 134283265, 134283265, 65537, 134283265, 134283265,
  134283265, 134283265, 134283265, 134283265, 134283265, 134283265, 206292713474, 206292713474, 134283266,
  206292713473, 206292713473, 134283265, 206292713474, 134283266, 65538, 206292713473, 134283265, 65537, 134283265,
  65537, 65537, 134283265, 134283265, 134283265, 65537, 1, 134283265, 65537, 65537, 134283265, 134283265, 134283265,
  65537, 134283265, 65537, 65537, 134283266, 134283266, 134283266, 65537, 134283265, 206292713473, 206292713473,
  281681269424129, 206292713473, 206292713473, 206292713473, 206292713473, 206292713473, 206292713473, 206292713473,
  206292713473, 134283265, 134283265, 134283265, 134283265, 134283265, 134283265, 206292713473, 206292713473,
  206292713473, 134283265, 206292713473, 206292713473, 206292713473, 134283265, 134283265, 134283265, 134283265,
  134283265, 134283265, 134283265, 134283265, 134283265, 206292713473, 134283265, 206292713473, 134283265,
  206292713473, 134283265, 206292713473, 134283265, 206292713473, 134283265, 206292713473, 134283265, 206292713473,
  134283265, 206292713473, 134283265, 206292713473, 206292713473, 206292713473, 134283265, 65537, 206292713473,
  206292713473, 206292713473, 134283265, 65537, 1, 134283265, 65537, 65537, 134283265, 134283265, 134283265, 65537,
  65537, 206292713473, 134283265, 134283265, 134283265, 65537, 134283265, 134283265, 134283265, 134283265, 134283265,
  134283265, 134283265, 134283265, 65537, 206292713473, 134283265, 134283265, 134283265, 65537, 134283265, 134283265,
  134283265, 134283265, 134283265, 134283265, 134283265, 134283265, 134283265, 65537, 65537, 65537, 65537, 1, 65537,
  65537, 65537, 1, 65537, 134283265, 134283265, 65537, 65537, 134283265, 134283265, 65537, 65537, 134283265,
  134283265, 65537, 65537, 134283265, 65537, 2, 135331841, 65537, 65537, 134283265, 134283265, 134283265, 65537,
  134283265, 134283265, 134283265, 65, 65537, 65537, 65537, 1, 65537, 1, 65537, 65537, 65537, 1, 136380417,
  208373153793, 134283265, 134283265, 206292713473, 206292713473, 134283265, 134283265, 65537, 134283265, 134283265,
  134283265, 134283265, 134283265, 134283265, 134283265, 134283265, 134283265, 134283265, 65537, 206292713473,
  206292713473, 134283265, 134283265, 65537, 1, 206292713473, 134283265, 65537, 207366455297, 135331841, 134283265,
  134283265, 65537, 134283265, 134283265, 134283265, 134283265, 134283265, 134283265, 134283265, 134283265,
  206292713473, 206292713473, 206292713473, 206292713473, 206292713473, 134283265, 65537, 134283265, 134283265,
  134283265, 134283265, 134283265, 134283265, 65537, 1, 65537, 136314945, 65537, 65537, 134283265, 134283265,
  134283265, 65537, 134283265, 65537, 134283265, 134283265, 134283265, 65537, 65537, 65537, 65537, 134283265,
  134283265, 134283265, 134283265, 134283265, 134283265, 134283265, 134283265, 134283265, 134283265, 134283265,
  134283265, 134283265, 65537, 65537, 67587, 137363521, 134283265, 134283266, 134283266, 134283265, 134283265,
  134283266, 134283266, 134283265, 134283265, 134283266, 134283266, 134283265, 65, 1090, 65537, 134283265, 134283265,
  134283265, 134283265, 134283265, 134283265, 134283265, 134283265, 134283265, 134283265, 134283265, 134283265,
  134283265, 65537, 65537, 65539, 135266369, 134283265, 134283266, 134283265, 134283266, 134283265, 134283265,
  134283266, 134283266, 134283265, 134283265, 134283266, 134283266, 66561, 66561, 65537, 65537, 65537, 67585, 65538,
  65537, 65537, 65537, 65537, 65537, 65537, 65538, 134283265, 206292713473, 206292713473, 206292713473, 134283265,
  206292713473, 206292713473, 134283265, 65537, 134283265, 134283265, 134283265, 134283265, 206292713473,
  206292713473, 134283265, 134283265, 134283265, 134283265, 134283265, 206292713473, 206292713473, 134283265,
  206292713473, 134283265, 65537, 206292713473, 134283265, 65537, 134285313, 207366389825, 206292713474, 206292713474,
  206292713473, 206292713473, 134283265, 134283265, 65539, 134283265, 134217793, 134283265, 134283265, 134283265,
  134217793, 134283265, 134283265, 206292713474, 206292713474, 134283266, 206292713473, 206292713473, 134283265,
  206292713474, 134283266, 65538, 206292713473, 134283265, 65537, 134283265, 206292713473, 206292713473, 206292713473,
  134283265, 206292713473, 206292713473, 134283265, 65537, 134283265, 134283265, 134283265, 134283265, 206292713473,
  206292713473, 134283265, 134283265, 134283265, 134283265, 134283265, 206292713473, 206292713473, 134283265,
  206292713473, 134283265, 65537, 206292713473, 134283265, 65537, 134285313, 207366389825, 206292713473, 206292713473,
  134283265, 206292713473, 206292713473, 134283265, 65539, 134283265, 134217793, 134283265, 134283265, 206292713473,
  206292713473, 134283265, 134283265, 134217793, 134283265, 134283265, 206292713473, 206292713473, 134283265,
  206292713473, 134283265, 65537, 206292713473, 134283265, 65537, 134283265, 65537, 65537, 134283265, 134283265,
  134283265, 65537, 134283265, 65537, 65537, 134283265, 134283265, 134283265, 65537, 134283265, 65537, 65537,
  134283265, 134283265, 134283265, 65537, 134283265, 65537, 65537, 134283265, 134283265, 134283265, 65537, 65537,
  65537, 65537, 67585, 65537, 65538, 65537, 65537, 65537, 65537, 65537, 65538, 1, 4, 1, 2, 134283265, 65537, 65537,
  134283265, 134283265, 134283265, 65537, 134283265, 65537, 65537, 134283266, 134283266, 134283266, 65537, 134283265,
  65537, 65537, 134283265, 134283265, 134283265, 65537, 134283265, 65537, 65537, 134283265, 134283265, 134283265,
  65537, 65537, 66561, 65537, 66561, 134283265, 206292713473, 206292713473, 206292713473, 206292713473, 206292713473,
  134283265, 134283265, 65537, 134283265, 134283265, 134283265, 134283265, 134283265, 134283265, 134283265, 134283265,
  206292713473, 206292713473, 134283265, 206292713473, 206292713473, 134283265, 206292713473, 134283265, 65537,
  206292713473, 134283265, 65537, 134285313, 207366389825, 206292713473, 206292713473, 134283265, 206292713474,
  206292713474, 134283265, 65539, 134283265, 134217793, 134283265, 134283265, 206292713473, 206292713473, 134283265,
  134283265, 134217793, 134283265, 134283265, 206292713474, 206292713474, 134283266, 206292713474, 134283266, 65538,
  206292713473, 134283265, 65537, 134283265, 206292713473, 206292713473, 206292713473, 206292713473, 206292713473,
  134283265, 134283265, 65537, 134283265, 134283265, 134283265, 134283265, 134283265, 134283265, 134283265, 134283265,
  206292713473, 206292713473, 134283265, 206292713473, 206292713473, 134283265, 206292713473, 134283265, 65537,
  206292713473, 134283265, 65537, 134285313, 207366389825, 206292713474, 206292713474, 206292713474, 206292713474,
  134283265, 134283265, 65539, 134283265, 134217793, 134283265, 134283265, 134283265, 134217793, 134283265, 134283265,
  206292713474, 206292713474, 134283266, 206292713474, 206292713474, 134283266, 206292713474, 134283266, 65538,
  206292713474, 134283266, 65538, 134283265, 65537, 65537, 134283265, 134283265, 134283265, 65537, 134283265, 65537,
  65537, 134283266, 134283266, 134283266, 65537, 134283265, 65537, 65537, 134283265, 134283265, 134283265, 65537,
  134283265, 65537, 65537, 134283266, 134283266, 134283266, 65537, 134283265, 206292713473, 206292713473,
  281681269424129, 206292713473, 206292713473, 206292713473, 206292713473, 206292713473, 206292713473, 206292713473,
  206292713473, 134283265, 134283265, 134283265, 134283265, 134283265, 134283265, 206292713473, 206292713473,
  206292713473, 134283265, 206292713473, 206292713473, 206292713473, 134283265, 134283265, 134283265, 134283265,
  134283265, 134283265, 134283265, 134283265, 134283265, 206292713473, 134283265, 206292713473, 134283265,
  206292713473, 134283265, 206292713473, 134283265, 206292713473, 134283265, 206292713473, 134283265, 206292713473,
  134283265, 206292713473, 134283265, 206292713473, 206292713473, 206292713473, 134283265, 65537, 206292713473,
  206292713473, 206292713473, 134283265, 65537, 1, 134284291, 207367438401, 208442228801, 284911151874113,
  206292648001, 206292713473, 206292648001, 206292713473, 206292648001, 206292713473, 206292648001, 206292713473,
  136315969, 136314946, 134284289, 134283266, 134284289, 134283266, 206292648001, 206292713473, 206292648001,
  134283265, 206292648001, 206292713473, 206292648001, 134283265, 134285313, 137363521, 134283267, 134285313,
  137363521, 134283267, 134283267, 134283267, 206292713473, 134283265, 206292713473, 134283265, 206292713473,
  134283265, 206292713473, 134283265, 206292713473, 134283265, 206292713473, 134283265, 206292713473, 134283265,
  206292713473, 134283265, 206292648001, 206292713473, 206292648001, 134283265, 65, 206292648001, 206292713473,
  206292648001, 134283265, 65, 4, 134283265, 206292713473, 206292713473, 281681269424129, 206292713473, 206292713473,
  206292713473, 206292713473, 206292713473, 206292713473, 206292713473, 206292713473, 134283265, 134283265, 134283265,
  134283265, 134283265, 134283265, 206292713473, 206292713473, 206292713473, 134283265, 206292713473, 206292713473,
  206292713473, 134283265, 134283265, 134283265, 134283265, 134283265, 134283265, 134283265, 134283265, 134283265,
  206292713473, 134283265, 206292713473, 134283265, 206292713473, 134283265, 206292713473, 134283265, 206292713473,
  134283265, 206292713473, 134283265, 206292713473, 134283265, 206292713473, 134283265, 206292713473, 206292713473,
  206292713473, 134283265, 65537, 206292713473, 206292713473, 206292713473, 134283265, 65537, 1, 134283267,
  207366389825, 206294810625, 282780780986433, 206292648001, 206292713473, 206292648001, 206292713473, 206292648001,
  206292713473, 206292648001, 206292713473, 136314945, 136314945, 134283265, 134283265, 134283265, 134283265,
  206292648001, 206292713473, 206292648001, 134283265, 206292648001, 206292713473, 206292648001, 134283265, 134285313,
  137363521, 134283267, 134285313, 137363521, 134283267, 134283267, 134283267, 206292713473, 134283265, 206292713473,
  134283265, 206292713473, 134283265, 206292713473, 134283265, 206292713473, 134283265, 206292713473, 134283265,
  206292713473, 134283265, 206292713473, 134283265, 206292648001, 206292713473, 206292648001, 134283265, 65,
  206292648001, 206292713473, 206292648001, 134283265, 65, 3, 206292713473, 134283265, 134283265, 134283265, 65537,
  134283265, 134283265, 134283265, 134283265, 134283265, 134283265, 134283265, 134283265, 208373153793, 134284289,
  134283265, 134283265, 65538, 134283265, 134283265, 134283265, 134283265, 134283265, 134283265, 134283265, 134283265,
  206292713473, 134283265, 134283265, 134283265, 65537, 134283265, 134283265, 134283265, 134283265, 134283265,
  134283265, 134283265, 134283265, 206292713473, 134283265, 134283265, 134283265, 65537, 134283265, 134283265,
  134283265, 134283265, 134283265, 134283265, 134283265, 134283265, 134283265, 65537, 65537, 134283265, 134283265,
  134283265, 65537, 134283265, 65537, 65537, 134283265, 134283265, 134283265, 65537, 134283265, 65537, 65537,
  134283265, 134283265, 134283265, 65537, 134283265, 65537, 65537, 134283266, 134283266, 134283266, 65537, 65537,
  66561, 65537, 66561, 206292713473, 134283265, 134283265, 134283265, 65537, 134283265, 134283265, 134283265,
  134283265, 134283265, 134283265, 134283265, 134283265, 208373153793, 134284289, 134283265, 134283265, 65538,
  134283265, 134283265, 134283265, 134283265, 134283265, 134283265, 134283265, 134283265, 206292713473, 134283265,
  134283265, 134283265, 65537, 134283265, 134283265, 134283265, 134283265, 134283265, 134283265, 134283265, 134283265,
  206292713473, 134283265, 134283265, 134283265, 65537, 134283265, 134283265, 134283265, 134283265, 134283265,
  134283265, 134283265, 134283265, 134283265, 65537, 137363521, 66562, 134283265, 65537, 135331841, 66561]

def dent_CCSD_SD_1_1 : List Nat := [
  1, 1, 1, 1, 1, 1, 1, 1, 1, 1, 1, 1, 1, 1, 1, 65, 65537, 65537, 65, 65537, 65537, 65, 65537, 134217793, 134283265,
  134283265, 65537, 65537, 134217793, 65537, 135266369, 2, 1, 65, 65, 1, 65, 65, 1089, 1, 1, 1, 1, 1, 1, 1, 1, 1, 1,
  1, 1, 1, 1, 1, 1, 65, 67587, 67587, 67587, 67587, 65537, 134283265, 135266369, 136380417, 208306044993, 134285313,
  207366389825, 134285313, 207366389825, 135266369, 134218819, 207233286273, 135266369, 136382465, 209379721345,
  206294810625, 282780646834305, 135266369, 135266369, 134283265, 134283265, 206292648001, 206292713473, 135266369,
  134283265, 134217793, 208306044993, 208373153793, 208373153793, 134283265, 134283265, 134283265, 134283265,
  134217793, 134283265, 134283265, 67585, 67585, 65, 134283265, 134283265, 206292713474, 206292713474, 206292713473,
  206292713473, 206292713473, 206292713473, 206292713473, 206292713473, 206292713473, 206292713473, 206292648001,
  206292713473, 206292648001, 206292713473, 134283265, 206292713473, 206292713473, 134283265, 206292713473,
  206292713473, 134283265, 67108993, 134283265, 136314945, 134283265, 134283265, 134283266, 134283266, 134283265,
  134283265, 65, 65537, 134217793, 134283265, 67239937, 134284289, 134283266, 134283266, 134283266, 134283266, 65,
  134283265, 134283265, 65537, 134283265, 134283265, 134283265, 134283265, 134217793, 134283265, 134283265, 134283265,
  134283265, 134283265, 67108993, 134283266, 134284289, 134283266, 134284289, 134283266, 134283265, 134283265,
  134283266, 134283266, 65, 134283265, 134283265, 65539, 65539, 65537, 134217793, 134283265, 134283265, 134283265,
  134283265, 134283265, 134283265, 134283265, 134217793, 134283265, 134283265, 134217793, 134283265, 134283265,
  134283265, 134217793, 134283265, 65, 65537, 206292713474, 206292713474, 134283266, 134283265, 134283265, 134283265,
  134283265, 206292713473, 206292713473, 134283265, 134283265, 134217793, 134283265, 134283265, 206292713473,
  206292713473, 134283265, 206292713473, 206292713473, 134283265, 206292713473, 206292713473, 134283265, 134283265,
  65, 65537, 65537, 65537, 206292648001, 206292713473, 206292648001, 134283265, 206292648001, 206292713473,
  206292648001, 134283265, 1, 206292713474, 134283266, 65538, 206292713474, 134283266, 65538, 206292713474, 134283266,
  65538, 206292713474, 134283266, 65538, 65, 65537, 65537, 65537, 65537, 1089, 134283265, 134283265, 134283265,
  134283265, 65537, 65537, 65537, 65537, 65, 65537, 65537, 65537, 65, 65537, 65537, 67108993, 134283265, 134285313,
  137363521, 134283267, 134285313, 137363521, 134283267, 65537, 134283265, 134283265, 1089, 65537, 134283266,
  134283266, 134283266, 134283266, 134283266, 134283266, 65537, 134283266, 134283266, 134283266, 134283266, 134283266,
  134283266, 67108993, 134283267, 134283267, 134283265, 134283265, 134283265, 134283265, 65, 65537, 206158561345,
  134217793, 206292713473, 134283265, 206292713473, 134283265, 206292713473, 134283265, 206292713473, 134283265,
  206292713473, 134283265, 206292713473, 134283265, 206292713473, 134283265, 206292713473, 134283265, 206292713473,
  134283265, 65, 135266369, 134283265, 135266369, 1, 206292713473, 206292713473, 206292713473, 134283265, 65537,
  206292713473, 206292713473, 206292713473, 134283265, 65537, 65537, 66561, 66561, 135331841, 65, 65538, 65538, 65537,
  134217793, 134283265, 134283265, 134283265, 134283265, 134283265, 134283265, 134283265, 134283265, 134283265,
  134283265, 134283265, 134283265, 134283265, 134283265, 134283265, 134283265, 134283265, 66562, 66, 65538, 65538,
  65538, 65538, 4, 65, 65, 65, 65, 4, 1090, 65537, 134283265, 134283265, 134283265, 134283266, 134283265, 134283265,
  134283266, 134283265, 134283265, 134283265, 134283265, 134283266, 134283265, 65537, 66561, 65537, 65537, 65538,
  134283265, 206292713473, 206292713473, 206292713473, 134283265, 206292713473, 206292713473, 134283265, 65537,
  134283265, 134283265, 134283265, 134283265, 206292713473, 206292713473, 134283265, 134283265, 134283265, 134283265,
  134283265, 206292713473, 206292713473, 134283265, 206292713473, 134283265, 65537, 206292713473, 134283265, 65537,
  65537, 65537, 65537, 134283265, 206292713473, 206292713474, 206292713474, 206292713473, 206292713473, 134283265,
  134283265, 65537, 134283265, 134283265, 134283265, 134283265, 134283265, 134283265, 134283265, 134283265,
  206292713474, 206292713474, 134283266, 206292713473, 206292713473, 134283265, 206292713473, 134283265, 65537,
  206292713474, 134283266, 65538, 134283265, 65537, 65537, 134283265, 134283265, 134283265, 65537, 1, 134283265,
  65537, 65537, 134283265, 134283265, 134283265, 65537, 134283265, 65537, 65537, 134283266, 134283266, 134283266,
  65537, 134283265, 206292713473, 206292713473, 281681269424129, 206292713473, 206292713473, 206292713473,
  206292713473, 206292713473, 206292713473, 206292713473, 206292713473, 134283265, 134283265, 134283265, 134283265,
  134283265, 134283265, 206292713473, 206292713473, 206292713473, 134283265, 206292713473, 206292713473, 206292713473,
  134283265, 134283265, 134283265, 134283265, 134283265, 134283265, 134283265, 134283265, 134283265, 206292713473,
  134283265, 206292713473, 134283265, 206292713473, 134283265, 206292713473, 134283265, 206292713473, 134283265,
  206292713473, 134283265, 206292713473, 134283265, 206292713473, 134283265, 134283265, 134283265, 206292713473,
  206292713473, 206292713473, 134283265, 65537, 206292713473, 206292713473, 206292713473, 134283265, 65537, 1,
  134283265, 65537, 65537, 134283265, 134283265, 134283265, 65537, 65537, 206292713473, 134283265, 134283265,
  134283265, 65537, 134283265, 134283265, 134283265, 134283265, 134283265, 134283265, 134283265, 134283265, 65537,
  206292713473, 134283265, 134283265, 134283265, 65537, 134283265, 134283265, 134283265, 134283265, 134283265,
  134283265, 134283265, 134283265, 134283265, 65537, 65537, 65537, 65537, 1, 65537, 65537, 65537, 1, 65537, 134283265,
  134283265, 65537, 65537, 134283265, 134283265, 65537, 65537, 134283265, 134283265, 65537, 65537, 134283265, 65537,
  2, 135331841, 65537, 65537, 134283265, 134283265, 134283265, 65537, 134283265, 134283265, 134283265, 65, 65537,
  65537, 65537, 1, 65537, 1, 65537, 65537, 65537, 1, 136380417, 208373153793, 134283265, 134283265, 206292713473,
  206292713473, 134283265, 134283265, 65537, 134283265, 134283265, 134283265, 134283265, 134283265, 134283265,
  134283265, 134283265, 134283265, 134283265, 65537, 206292713473, 206292713473, 134283265, 206292713473, 134283265,
  65537, 134283265, 65537, 1, 207366455297, 135331841, 134283265, 134283265, 65537, 134283265, 134283265, 134283265,
  134283265, 134283265, 134283265, 134283265, 134283265, 206292713473, 206292713473, 206292713473, 206292713473,
  206292713473, 134283265, 134283265, 65537, 134283265, 134283265, 134283265, 134283265, 134283265, 65537, 65537, 1,
  136314945, 65537, 65537, 134283265, 134283265, 134283265, 65537, 134283265, 65537, 134283265, 134283265, 134283265,
  65537, 65537, 65537, 65537, 134283265, 134283265, 134283265, 134283265, 134283265, 134283265, 134283265, 134283265,
  134283265, 134283265, 134283265, 134283265, 134283265, 65537, 65537, 67587, 137363521, 134283265, 134283266,
  134283266, 134283265, 134283265, 134283266, 134283266, 134283265, 134283265, 134283266, 134283266, 134283265, 65,
  1090, 65537, 134283265, 134283265, 134283265, 134283265, 134283265, 134283265, 134283265, 134283265, 134283265,
  134283265, 134283265, 134283265, 134283265, 65537, 65537, 65539, 135266369, 134283265, 134283265, 134283266,
  134283266, 134283265, 134283266, 134283265, 134283266, 134283265, 134283265, 134283266, 134283266, 66561, 66561,
  65537, 65537, 65537, 67585, 65538, 65537, 65537, 65537, 65537, 65537, 65537, 65538, 134283265, 206292713473,
  206292713473, 206292713473, 134283265, 206292713473, 206292713473, 134283265, 65537, 134283265, 134283265,
  134283265, 134283265, 206292713473, 206292713473, 134283265, 134283265, 134283265, 134283265, 134283265,
  206292713473, 206292713473, 134283265, 206292713473, 134283265, 65537, 206292713473, 134283265, 65537, 134285313,
  207366389825, 206292713474, 206292713474, 206292713473, 206292713473, 134283265, 134283265, 65539, 134283265,
  134217793, 134283265, 134283265, 134283265, 134217793, 134283265, 134283265, 206292713474, 206292713474, 134283266,
  206292713473, 206292713473, 134283265, 206292713473, 134283265, 65537, 206292713474, 134283266, 65538, 134283265,
  206292713473, 206292713473, 206292713473, 134283265, 206292713473, 206292713473, 134283265, 65537, 134283265,
  134283265, 134283265, 134283265, 206292713473, 206292713473, 134283265, 134283265, 134283265, 134283265, 134283265,
  206292713473, 206292713473, 134283265, 206292713473, 134283265, 65537, 206292713473, 134283265, 65537, 134285313,
  207366389825, 206292713473, 206292713473, 134283265, 206292713473, 206292713473, 134283265, 65539, 134283265,
  134217793, 134283265, 134283265, 206292713473, 206292713473, 134283265, 134283265, 134217793, 134283265, 134283265,
  206292713473, 206292713473, 134283265, 206292713473, 134283265, 65537, 206292713473, 134283265, 65537, 134283265,
  65537, 65537, 134283265, 134283265, 134283265, 65537, 134283265, 65537, 65537, 134283265, 134283265, 134283265,
  65537, 134283265, 65537, 65537, 134283265, 134283265, 134283265, 65537, 134283265, 65537, 65537, 134283265,
  134283265, 134283265, 65537, 65537, 65537, 65537, 67585, 65537, 65538, 65537, 65537, 65537, 65537, 65537, 65538, 1,
  4, 1, 2, 134283265, 65537, 65537, 134283265, 134283265, 134283265, 65537, 134283265, 65537, 65537, 134283266,
  134283266, 134283266, 65537, 134283265, 65537, 65537, 134283265, 134283265, 134283265, 65537, 134283265, 65537,
  65537, 134283265, 134283265, 134283265, 65537, 65537, 66561, 65537, 66561, 134283265, 206292713473, 206292713473,
  206292713473, 206292713473, 206292713473, 134283265, 134283265, 65537, 134283265, 134283265, 134283265, 134283265,
  134283265, 134283265, 134283265, 134283265, 206292713473, 206292713473, 134283265, 206292713473, 206292713473,
  134283265, 206292713473, 134283265, 65537, 206292713473, 134283265, 65537, 134285313, 207366389825, 206292713473,
  206292713473, 134283265, 206292713474, 206292713474, 134283265, 65539, 134283265, 134217793, 134283265, 134283265,
  206292713473, 206292713473, 134283265, 134283265, 134217793, 134283265, 134283265, 206292713474, 206292713474,
  134283266, 206292713473, 134283265, 65537, 206292713474, 134283266, 65538, 134283265, 206292713473, 206292713473,
  206292713473, 206292713473, 206292713473, 134283265, 134283265, 65537, 134283265, 134283265, 134283265, 134283265,
  134283265, 134283265, 134283265, 134283265, 206292713473, 206292713473, 134283265, 206292713473, 206292713473,
  134283265, 206292713473, 134283265, 65537, 206292713473, 134283265, 65537, 134285313, 207366389825, 206292713474,
  206292713474, 206292713474, 206292713474, 134283265, 134283265, 65539, 134283265, 134217793, 134283265, 134283265,
  134283265, 134217793, 134283265, 134283265, 206292713474, 206292713474, 134283266, 206292713474, 206292713474,
  134283266, 206292713474, 134283266, 65538, 206292713474, 134283266, 65538, 134283265, 65537, 65537, 134283265,
  134283265, 134283265, 65537, 134283265, 65537, 65537, 134283266, 134283266, 134283266, 65537, 134283265, 65537,
  65537, 134283265, 134283265, 134283265, 65537, 134283265, 65537, 65537, 134283266, 134283266, 134283266, 65537,
  134283265, 206292713473, 206292713473, 281681269424129, 206292713473, 206292713473, 206292713473, 206292713473,
  206292713473, 206292713473, 206292713473, 206292713473, 134283265, 134283265, 134283265, 134283265, 134283265,
  134283265, 206292713473, 206292713473, 206292713473, 134283265, 206292713473, 206292713473, 206292713473, 134283265,
  134283265, 134283265, 134283265, 134283265, 134283265, 134283265, 134283265, 134283265, 206292713473, 134283265,
  206292713473, 134283265, 206292713473, 134283265, 206292713473, 134283265, 206292713473, 134283265, 206292713473,
  134283265, 206292713473, 134283265, 206292713473, 134283265, 134283265, 134283265, 206292713473, 206292713473,
  206292713473, 134283265, 65537, 206292713473, 206292713473, 206292713473, 134283265, 65537, 1, 134284291,
  207367438401, 208442228801, 284911151874113, 206292648001, 206292713473, 206292648001, 206292713473, 206292648001,
  206292713473, 206292648001, 206292713473, 136315969, 136314946, 134284289, 134283266, 134284289, 134283266,
  206292648001, 206292713473, 206292648001, 134283265, 206292648001, 206292713473, 206292648001, 134283265, 134285313,
  137363521, 134283267, 134285313, 137363521, 134283267, 134283267, 134283267, 206292713473, 134283265, 206292713473,
  134283265, 206292713473, 134283265, 206292713473, 134283265, 206292713473, 134283265, 206292713473, 134283265,
  206292713473, 134283265, 206292713473, 134283265, 135266369, 135266369, 206292648001, 206292713473, 206292648001,
  134283265, 65, 206292648001, 206292713473, 206292648001, 134283265, 65, 4, 134283265, 206292713473, 206292713473,
  281681269424129, 206292713473, 206292713473, 206292713473, 206292713473, 206292713473, 206292713473, 206292713473,
  206292713473, 134283265, 134283265, 134283265, 134283265, 134283265, 134283265, 206292713473, 206292713473,
  206292713473, 134283265, 206292713473, 206292713473, 206292713473, 134283265, 134283265, 134283265, 134283265,
  134283265, 134283265, 134283265, 134283265, 134283265, 206292713473, 134283265, 206292713473, 134283265,
  206292713473, 134283265, 206292713473, 134283265, 206292713473, 134283265, 206292713473, 134283265, 206292713473,
  134283265, 206292713473, 134283265, 134283265, 134283265, 206292713473, 206292713473, 206292713473, 134283265,
  65537, 206292713473, 206292713473, 206292713473, 134283265, 65537, 1, 134283267, 207366389825, 206294810625,
  282780780986433, 206292648001, 206292713473, 206292648001, 206292713473, 206292648001, 206292713473, 206292648001,
  206292713473, 136314945, 136314945, 134283265, 134283265, 134283265, 134283265, 206292648001, 206292713473,
  206292648001, 134283265, 206292648001, 206292713473, 206292648001, 134283265, 134285313, 137363521, 134283267,
  134285313, 137363521, 134283267, 134283267, 134283267, 206292713473, 134283265, 206292713473, 134283265,
  206292713473, 134283265, 206292713473, 134283265, 206292713473, 134283265, 206292713473, 134283265, 206292713473,
  134283265, 206292713473, 134283265, 135266369, 135266369, 206292648001, 206292713473, 206292648001, 134283265, 65,
  206292648001, 206292713473, 206292648001, 134283265, 65, 3, 206292713473, 134283265, 134283265, 134283265, 65537,
  134283265, 134283265, 134283265, 134283265, 134283265, 134283265, 134283265, 134283265, 208373153793, 134284289,
  134283265, 134283265, 65538, 134283265, 134283265, 134283265, 134283265, 134283265, 134283265, 134283265, 134283265,
  206292713473, 134283265, 134283265, 134283265, 65537, 134283265, 134283265, 134283265, 134283265, 134283265,
  134283265, 134283265, 134283265, 206292713473, 134283265, 134283265, 134283265, 65537, 134283265, 134283265,
  134283265, 134283265, 134283265, 134283265, 134283265, 134283265, 134283265, 65537, 65537, 134283265, 134283265,
  134283265, 65537, 134283265, 65537, 65537, 134283265, 134283265, 134283265, 65537, 134283265, 65537, 65537,
  134283265, 134283265, 134283265, 65537, 134283265, 65537, 65537, 134283266, 134283266, 134283266, 65537, 65537,
  66561, 65537, 66561, 206292713473, 134283265, 134283265, 134283265, 65537, 134283265, 134283265, 134283265,
  134283265, 134283265, 134283265, 134283265, 134283265, 208373153793, 134284289, 134283265, 134283265, 65538,
  134283265, 134283265, 134283265, 134283265, 134283265, 134283265, 134283265, 134283265, 206292713473, 134283265,
  134283265, 134283265, 65537, 134283265, 134283265, 134283265, 134283265, 134283265, 134283265, 134283265, 134283265,
  206292713473, 134283265, 134283265, 134283265, 65537, 134283265, 134283265, 134283265, 134283265, 134283265,
  134283265, 134283265, 134283265, 134283265, 65537, 137363521, 66562, 134283265, 65537, 135331841, 66561]

def dent_CCSD_SD_1_2 : List Nat := [
  1, 1, 1, 1, 1, 1, 1, 1, 1, 1, 1, 1, 1, 1, 1, 1, 1, 1, 65, 65537, 65537, 65, 65537, 65537, 65, 65537, 65537, 65,
  65537, 134283265, 134217793, 134283265, 134283265, 65537, 65537, 134217793, 65537, 135266369, 65537, 66561,
  134217793, 135266369, 2, 1, 65, 1, 65, 65, 65, 65, 1089, 65, 1, 1, 1, 1, 1, 1, 1, 1, 1, 1, 1, 1, 1, 1, 1, 1, 1, 1,
  65, 67587, 67587, 67587, 67587, 65537, 134283265, 135266369, 136380417, 208306044993, 134285313, 207366389825,
  134285313, 207366389825, 135266369, 134218819, 207233286273, 135266369, 136382465, 209379721345, 208442228801,
  284773712986241, 135266369, 135266369, 134283265, 134283265, 206292648001, 206292713473, 135266369, 134283265,
  134283265, 134217793, 208306044993, 208373153793, 208373153793, 134283265, 134283265, 134283265, 134283265,
  134217793, 134283265, 134283265, 67585, 67585, 65, 134283265, 134283265, 65537, 67108993, 134283266, 65537,
  134283265, 134283265, 134283266, 134283266, 65, 65537, 65537, 65, 65537, 134283265, 134283265, 134283265, 134283265,
  134283265, 134283265, 134283265, 134283265, 67108995, 69339137, 134283265, 136314945, 134283265, 134283265,
  134283266, 134283266, 134283266, 134283266, 134283265, 134283265, 134283265, 134283265, 65537, 134283265, 134283265,
  134283265, 134283265, 65, 65537, 134283265, 134283265, 134283265, 134283265, 134217793, 134283265, 67239937,
  134284289, 134283266, 134284289, 134283266, 134284289, 65537, 134283265, 134217793, 134283265, 134283265, 134283265,
  134217793, 134283265, 134283265, 134283266, 134283266, 134283266, 134283266, 65, 134283265, 134283265, 65539, 65539,
  65537, 134217793, 134283265, 134283265, 65537, 134217793, 134283265, 134217793, 134283265, 134283265, 66561,
  134283265, 134283265, 134283265, 134283265, 134283265, 134283265, 134283265, 134283265, 134283265, 134283265,
  134217793, 134283265, 135266369, 65537, 134217793, 135266369, 134283265, 134283265, 134283265, 206292648001,
  206292713473, 135266369, 134283265, 65, 65537, 206292713474, 206292713474, 206292713474, 134283266, 134283265,
  134283265, 134283265, 134283265, 134283265, 206292713473, 206292713473, 206292713473, 134283265, 134283265,
  134283265, 134217793, 134283265, 135266369, 206292713473, 206292713473, 206292713473, 134283265, 206292713473,
  206292713473, 206292713473, 134283265, 206292713473, 206292713473, 206292713473, 134283265, 65537, 206292713473,
  134283265, 65537, 134217793, 134283265, 134283265, 134283265, 134283265, 134283265, 134283265, 134283265, 134283265,
  206292648001, 206292713473, 134217793, 134283265, 206292713474, 206292713474, 206292713474, 206292713474, 134283265,
  134283265, 134283265, 206292713473, 206292713473, 206292713473, 206292713473, 134283265, 134283265, 134283265,
  206292713473, 206292713473, 206292713473, 206292713473, 206292713473, 206292713473, 206292713473, 206292713473,
  206292713473, 206292713473, 206292713473, 206292713473, 134283265, 206292713473, 206292713473, 206292713473,
  206292713473, 135266369, 206292648001, 206292713473, 65, 65537, 65537, 65537, 65, 65537, 65537, 65537, 206292713473,
  206292713473, 206292713473, 134283265, 134283265, 206292713473, 206292713473, 206292713473, 134283265, 134283265, 1,
  206292713474, 134283266, 134283266, 65538, 206292713474, 134283266, 134283266, 65538, 206292713474, 134283266,
  134283266, 65538, 206292713474, 134283266, 134283266, 65538, 1089, 134283265, 134283265, 134283265, 134283265,
  65537, 65537, 65537, 65537, 65, 65537, 65537, 65537, 65537, 65, 134283265, 134283265, 65537, 65537, 65537, 65537,
  65, 65537, 65537, 65537, 65, 65537, 65537, 67108993, 134283265, 134285313, 137363521, 134283267, 134285313,
  137363521, 134283267, 65537, 134283265, 134283265, 65, 65537, 65537, 65537, 1089, 65537, 134283266, 134283266,
  134283266, 134283266, 134283266, 134283266, 134283266, 134283266, 65537, 134283266, 134283266, 134283266, 134283266,
  134283266, 134283266, 134283266, 134283266, 65537, 67108994, 67108994, 134283265, 134283265, 134283265, 134283265,
  134283265, 134283265, 134283265, 134283265, 134283265, 134283265, 134283265, 134283265, 134283265, 134283265,
  134283265, 134283265, 134283265, 134283265, 65, 134217793, 134283265, 206292713473, 206292713473, 206292713473,
  206292713473, 206292713473, 134283265, 206292713473, 206292713473, 206292713473, 206292713473, 206292713473,
  134283265, 206292713473, 206292648001, 206292713473, 206292713473, 206292648001, 134283265, 206292713473,
  206292648001, 206292713473, 206292713473, 206292648001, 134283265, 65, 65537, 206158561345, 134217793, 206292713473,
  134283265, 206292713473, 206292713473, 206292713473, 134283265, 206292713473, 206292713473, 134283265, 206292713473,
  206292713473, 206292713473, 134283265, 206292713473, 206292713473, 134283265, 206292713473, 207299411969,
  206292713473, 134283265, 206292713473, 206292713473, 134283265, 206292713473, 207299411969, 206292713473, 134283265,
  206292713473, 206292713473, 134283265, 65, 135266369, 134283265, 135266369, 1, 206292713473, 206292648001,
  206292648001, 134283265, 134283265, 65, 206292713473, 206292648001, 206292648001, 134283265, 134283265, 65, 65537,
  66561, 66561, 135331841, 65, 65538, 65538, 65537, 134217793, 134283265, 65537, 134283265, 134283265, 134283265,
  134283265, 134283265, 134283265, 134283265, 134283265, 134283265, 134283265, 134283265, 134283265, 134283265,
  134283265, 134283265, 134283265, 134283265, 134283265, 134283265, 134283265, 134283265, 134283265, 66562, 66, 65538,
  65538, 65538, 65538, 4, 65, 65, 65, 65, 4, 1090, 65537, 134283265, 134283265, 134283265, 134283266, 134283265,
  134283265, 134283265, 134283265, 134283265, 134283266, 134283266, 134283265, 134283265, 134283265, 134283266,
  134283265, 134283265, 65537, 66561, 65537, 65537, 65538, 134283265, 206292713473, 65537, 134283265, 134283265,
  134283265, 134283265, 134283265, 206292713473, 206292713473, 206292713473, 134283265, 134283265, 134283265,
  134283265, 134283265, 134283265, 206292713473, 206292713473, 206292713473, 134283265, 134283265, 134283265,
  134283265, 206292713473, 206292713473, 206292713473, 206292713473, 134283265, 134283265, 134283265, 206292713473,
  206292713473, 206292713473, 206292713473, 206292713473, 134283265, 134283265, 65537, 206292713473, 134283265,
  134283265, 65537, 65537, 65537, 65537, 134283265, 206292713473, 65537, 134283265, 134283265, 134283265, 134283265,
  134283265, 134283265, 134283265, 134283265, 134283265, 134283265, 206292713474, 206292713474, 206292713474,
  134283266, 206292713473, 206292713473, 206292713473, 134283265, 134283265, 134283265, 134283265, 134283265,
  134283265, 134283265, 206292713474, 206292713474, 206292713474, 206292713474, 206292713473, 206292713473,
  206292713473, 206292713473, 206292713474, 134283266, 134283266, 65538, 206292713473, 134283265, 134283265, 65537,
  134283265, 65537, 65537, 65537, 134283265, 134283265, 134283265, 134283265, 65537, 1, 134283265, 65537, 65537,
  65537, 134283265, 134283265, 134283265, 134283265, 65537, 134283265, 65537, 65537, 65537, 134283266, 134283266,
  134283266, 134283266, 65537, 134283265, 206292713473, 206292713473, 281681269424129, 134283265, 134283265,
  134283265, 134283265, 134283265, 134283265, 134283265, 134283265, 206292713473, 206292713473, 206292713473,
  134283265, 134283265, 206292713473, 206292713473, 206292713473, 134283265, 134283265, 134283265, 134283265,
  134283265, 134283265, 134283265, 134283265, 134283265, 134283265, 134283265, 134283265, 206292713473, 206292713473,
  206292713473, 206292713473, 206292713473, 134283265, 206292713473, 206292713473, 206292713473, 206292713473,
  206292713473, 134283265, 206292713473, 206292713473, 206292713473, 206292713473, 206292713473, 134283265,
  206292713473, 206292713473, 206292713473, 206292713473, 206292713473, 134283265, 206292713473, 206292713473,
  206292713473, 134283265, 206292713473, 206292713473, 134283265, 206292713473, 206292713473, 206292713473, 134283265,
  206292713473, 206292713473, 134283265, 206292713473, 206292713473, 206292713473, 134283265, 206292713473,
  206292713473, 134283265, 206292713473, 206292713473, 206292713473, 134283265, 206292713473, 206292713473, 134283265,
  134283265, 134283265, 206292713473, 206292713473, 206292713473, 134283265, 134283265, 65537, 206292713473,
  206292713473, 206292713473, 134283265, 134283265, 65537, 1, 134283265, 65537, 65537, 65537, 134283265, 134283265,
  134283265, 134283265, 65537, 65537, 206292713473, 134283265, 134283265, 134283265, 134283265, 134283265, 134283265,
  134283265, 65537, 134283265, 134283265, 134283265, 134283265, 134283265, 134283265, 134283265, 134283265, 134283265,
  134283265, 65537, 206292713473, 134283265, 134283265, 134283265, 134283265, 134283265, 134283265, 134283265, 65537,
  134283265, 134283265, 134283265, 134283265, 134283265, 134283265, 134283265, 134283265, 134283265, 134283265,
  134283265, 65537, 65537, 65537, 65537, 65537, 1, 65537, 65537, 65537, 65537, 1, 65537, 134283265, 134283265, 65537,
  65537, 134283265, 134283265, 134283265, 65537, 65537, 65537, 65537, 134283265, 134283265, 134283265, 65537, 65537,
  134283265, 65537, 2, 135331841, 65537, 65537, 65537, 134283265, 134283265, 134283265, 134283265, 65537, 134283265,
  134283265, 134283265, 134283265, 65, 65537, 65537, 65537, 65537, 1, 65537, 1, 65537, 65537, 65537, 1, 136380417,
  208373153793, 65537, 134283265, 134283265, 134283265, 134283265, 134283265, 134283265, 134283265, 134283265,
  134283265, 134283265, 134283265, 134283265, 134283265, 65537, 206292713473, 206292713473, 206292713473, 134283265,
  134283265, 134283265, 134283265, 134283265, 134283265, 134283265, 134283265, 134283265, 134283265, 134283265,
  206292713473, 206292713473, 206292713473, 206292713473, 134283265, 65537, 65537, 1, 206292713473, 134283265,
  134283265, 65537, 207366455297, 135331841, 134283265, 134283265, 134283265, 134283265, 134283265, 134283265, 65537,
  134283265, 134283265, 134283265, 134283265, 134283265, 134283265, 134283265, 134283265, 134283265, 134283265,
  206292713473, 206292713473, 206292713473, 206292713473, 206292713473, 206292713473, 206292713473, 206292713473,
  134283265, 65537, 134283265, 134283265, 134283265, 134283265, 134283265, 134283265, 134283265, 134283265, 134283265,
  134283265, 65537, 1, 65537, 65537, 136314945, 65537, 65537, 65537, 134283265, 134283265, 134283265, 134283265,
  65537, 134283265, 65537, 134283265, 134283265, 134283265, 134283265, 65537, 65537, 65537, 65537, 65537, 134283265,
  134283265, 134283265, 134283265, 134283265, 134283265, 134283265, 134283265, 134283265, 134283265, 134283265,
  134283265, 134283265, 134283265, 134283265, 134283265, 134283265, 65537, 65537, 67587, 137363521, 134283265,
  134283266, 134283266, 134283265, 134283265, 134283265, 134283266, 134283266, 134283266, 134283266, 134283265,
  134283265, 134283265, 134283266, 134283266, 134283265, 65, 1090, 65537, 134283265, 134283265, 134283265, 134283265,
  134283265, 134283265, 134283265, 134283265, 134283265, 134283265, 134283265, 134283265, 134283265, 134283265,
  134283265, 134283265, 134283265, 65537, 65537, 65539, 135266369, 134283265, 134283265, 134283266, 134283266,
  134283265, 134283265, 134283265, 134283265, 134283266, 134283266, 134283266, 134283266, 134283265, 134283266,
  134283265, 134283266, 66561, 66561, 65537, 65537, 65537, 67585, 65538, 65537, 65537, 65537, 65537, 65537, 65537,
  65538, 134283265, 206292713473, 65537, 134283265, 134283265, 134283265, 134283265, 134283265, 206292713473,
  206292713473, 206292713473, 134283265, 134283265, 134283265, 134283265, 134283265, 134283265, 206292713473,
  206292713473, 206292713473, 134283265, 134283265, 134283265, 134283265, 206292713473, 206292713473, 206292713473,
  206292713473, 134283265, 134283265, 134283265, 206292713473, 206292713473, 206292713473, 206292713473, 206292713473,
  134283265, 134283265, 65537, 206292713473, 134283265, 134283265, 65537, 134285313, 207366389825, 65539, 134283265,
  134283265, 134217793, 134283265, 135266369, 134283265, 134283265, 134217793, 134283265, 135266369, 206292713474,
  206292713474, 206292713474, 134283266, 206292713473, 206292713473, 206292713473, 134283265, 134283265, 134283265,
  134283265, 134283265, 134283265, 134283265, 206292713474, 206292713474, 206292713474, 206292713474, 206292713473,
  206292713473, 206292713473, 206292713473, 206292713474, 134283266, 134283266, 65538, 206292713473, 134283265,
  134283265, 65537, 134283265, 206292713473, 65537, 134283265, 134283265, 134283265, 134283265, 134283265,
  206292713473, 206292713473, 206292713473, 134283265, 134283265, 134283265, 134283265, 134283265, 134283265,
  206292713473, 206292713473, 206292713473, 134283265, 134283265, 134283265, 134283265, 206292713473, 206292713473,
  206292713473, 206292713473, 134283265, 134283265, 134283265, 206292713473, 206292713473, 206292713473, 206292713473,
  206292713473, 134283265, 134283265, 65537, 206292713473, 134283265, 134283265, 65537, 134285313, 207366389825,
  65539, 134283265, 134283265, 134217793, 134283265, 135266369, 206292713473, 206292713473, 206292713473, 134283265,
  134283265, 134283265, 134217793, 134283265, 135266369, 206292713473, 206292713473, 206292713473, 134283265,
  134283265, 134283265, 134283265, 206292713473, 206292713473, 206292713473, 206292713473, 134283265, 134283265,
  134283265, 206292713473, 206292713473, 206292713473, 206292713473, 206292713473, 134283265, 134283265, 65537,
  206292713473, 134283265, 134283265, 65537, 134283265, 65537, 65537, 65537, 134283265, 134283265, 134283265,
  134283265, 65537, 134283265, 65537, 65537, 65537, 134283265, 134283265, 134283265, 134283265, 65537, 134283265,
  65537, 65537, 65537, 134283265, 134283265, 134283265, 134283265, 65537, 134283265, 65537, 65537, 65537, 134283265,
  134283265, 134283265, 134283265, 65537, 65537, 65537, 65537, 67585, 65537, 65538, 65537, 65537, 65537, 65537, 65537,
  65538, 1, 4, 1, 2, 134283265, 65537, 65537, 65537, 134283265, 134283265, 134283265, 134283265, 65537, 134283265,
  65537, 65537, 65537, 134283266, 134283266, 134283266, 134283266, 65537, 134283265, 65537, 65537, 65537, 134283265,
  134283265, 134283265, 134283265, 65537, 134283265, 65537, 65537, 65537, 134283265, 134283265, 134283265, 134283265,
  65537, 65537, 66561, 65537, 66561, 134283265, 206292713473, 65537, 134283265, 134283265, 134283265, 134283265,
  134283265, 134283265, 134283265, 134283265, 134283265, 134283265, 206292713473, 206292713473, 206292713473,
  134283265, 206292713473, 206292713473, 206292713473, 134283265, 134283265, 134283265, 134283265, 134283265,
  134283265, 134283265, 206292713473, 206292713473, 206292713473, 206292713473, 206292713473, 206292713473,
  206292713473, 206292713473, 206292713473, 134283265, 134283265, 65537, 206292713473, 134283265, 134283265, 65537,
  134285313, 207366389825, 65539, 134283265, 134283265, 134217793, 134283265, 135266369, 206292713473, 206292713473,
  206292713473, 134283265, 134283265, 134283265, 134217793, 134283265, 135266369, 206292713474, 206292713474,
  206292713474, 134283266, 134283265, 134283265, 134283265, 206292713473, 206292713473, 206292713473, 206292713473,
  134283265, 134283265, 134283265, 206292713474, 206292713474, 206292713474, 206292713474, 206292713474, 134283266,
  134283266, 65538, 206292713473, 134283265, 134283265, 65537, 134283265, 206292713473, 65537, 134283265, 134283265,
  134283265, 134283265, 134283265, 134283265, 134283265, 134283265, 134283265, 134283265, 206292713473, 206292713473,
  206292713473, 134283265, 206292713473, 206292713473, 206292713473, 134283265, 134283265, 134283265, 134283265,
  134283265, 134283265, 134283265, 206292713473, 206292713473, 206292713473, 206292713473, 206292713473, 206292713473,
  206292713473, 206292713473, 206292713473, 134283265, 134283265, 65537, 206292713473, 134283265, 134283265, 65537,
  134285313, 207366389825, 65539, 134283265, 134283265, 134217793, 134283265, 135266369, 134283265, 134283265,
  134217793, 134283265, 135266369, 206292713474, 206292713474, 206292713474, 134283266, 206292713474, 206292713474,
  206292713474, 134283266, 134283265, 134283265, 134283265, 134283265, 134283265, 134283265, 206292713474,
  206292713474, 206292713474, 206292713474, 206292713474, 206292713474, 206292713474, 206292713474, 206292713474,
  134283266, 134283266, 65538, 206292713474, 134283266, 134283266, 65538, 134283265, 65537, 65537, 65537, 134283265,
  134283265, 134283265, 134283265, 65537, 134283265, 65537, 65537, 65537, 134283266, 134283266, 134283266, 134283266,
  65537, 134283265, 65537, 65537, 65537, 134283265, 134283265, 134283265, 134283265, 65537, 134283265, 65537, 65537,
  65537, 134283266, 134283266, 134283266, 134283266, 65537, 134283265, 206292713473, 206292713473, 281681269424129,
  134283265, 134283265, 134283265, 134283265, 134283265, 134283265, 134283265, 134283265, 206292713473, 206292713473,
  206292713473, 134283265, 134283265, 206292713473, 206292713473, 206292713473, 134283265, 134283265, 134283265,
  134283265, 134283265, 134283265, 134283265, 134283265, 134283265, 134283265, 134283265, 134283265, 206292713473,
  206292713473, 206292713473, 206292713473, 206292713473, 134283265, 206292713473, 206292713473, 206292713473,
  206292713473, 206292713473, 134283265, 206292713473, 206292713473, 206292713473, 206292713473, 206292713473,
  134283265, 206292713473, 206292713473, 206292713473, 206292713473, 206292713473, 134283265, 206292713473,
  206292713473, 206292713473, 134283265, 206292713473, 206292713473, 134283265, 206292713473, 206292713473,
  206292713473, 134283265, 206292713473, 206292713473, 134283265, 206292713473, 206292713473, 206292713473, 134283265,
  206292713473, 206292713473, 134283265, 206292713473, 206292713473, 206292713473, 134283265, 206292713473,
  206292713473, 134283265, 134283265, 134283265, 206292713473, 206292713473, 206292713473, 134283265, 134283265,
  65537, 206292713473, 206292713473, 206292713473, 134283265, 134283265, 65537, 1, 134284291, 207367438401,
  208442228801, 284911151874113, 134283266, 136315969, 134283266, 136314946, 134283266, 134284289, 134283266,
  134284289, 206292713473, 206292648001, 206292648001, 134283265, 134283265, 206292713473, 206292648001, 206292648001,
  134283265, 134283265, 134285313, 137363521, 134283267, 134285313, 137363521, 134283267, 134283267, 134283267,
  134283267, 134283267, 206292713473, 206292648001, 206292713473, 206292713473, 206292648001, 134283265, 206292713473,
  206292648001, 206292713473, 206292713473, 206292648001, 134283265, 206292713473, 206292648001, 206292713473,
  206292713473, 206292648001, 134283265, 206292713473, 206292648001, 206292713473, 206292713473, 206292648001,
  134283265, 206292713473, 207299411969, 206292713473, 134283265, 206292713473, 206292713473, 134283265, 206292713473,
  207299411969, 206292713473, 134283265, 206292713473, 206292713473, 134283265, 206292713473, 207299411969,
  206292713473, 134283265, 206292713473, 206292713473, 134283265, 206292713473, 207299411969, 206292713473, 134283265,
  206292713473, 206292713473, 134283265, 135266369, 135266369, 206292713473, 206292648001, 206292648001, 134283265,
  134283265, 65, 206292713473, 206292648001, 206292648001, 134283265, 134283265, 65, 4, 134283265, 206292713473,
  206292713473, 281681269424129, 134283265, 134283265, 134283265, 134283265, 134283265, 134283265, 134283265,
  134283265, 206292713473, 206292713473, 206292713473, 134283265, 134283265, 206292713473, 206292713473, 206292713473,
  134283265, 134283265, 134283265, 134283265, 134283265, 134283265, 134283265, 134283265, 134283265, 134283265,
  134283265, 134283265, 206292713473, 206292713473, 206292713473, 206292713473, 206292713473, 134283265, 206292713473,
  206292713473, 206292713473, 206292713473, 206292713473, 134283265, 206292713473, 206292713473, 206292713473,
  206292713473, 206292713473, 134283265, 206292713473, 206292713473, 206292713473, 206292713473, 206292713473,
  134283265, 206292713473, 206292713473, 206292713473, 134283265, 206292713473, 206292713473, 134283265, 206292713473,
  206292713473, 206292713473, 134283265, 206292713473, 206292713473, 134283265, 206292713473, 206292713473,
  206292713473, 134283265, 206292713473, 206292713473, 134283265, 206292713473, 206292713473, 206292713473, 134283265,
  206292713473, 206292713473, 134283265, 134283265, 134283265, 206292713473, 206292713473, 206292713473, 134283265,
  134283265, 65537, 206292713473, 206292713473, 206292713473, 134283265, 134283265, 65537, 1, 134283267, 207366389825,
  206294810625, 282780780986433, 134283265, 136314945, 134283265, 136314945, 134283265, 134283265, 134283265,
  134283265, 206292713473, 206292648001, 206292648001, 134283265, 134283265, 206292713473, 206292648001, 206292648001,
  134283265, 134283265, 134285313, 137363521, 134283267, 134285313, 137363521, 134283267, 134283267, 134283267,
  134283267, 134283267, 206292713473, 206292648001, 206292713473, 206292713473, 206292648001, 134283265, 206292713473,
  206292648001, 206292713473, 206292713473, 206292648001, 134283265, 206292713473, 206292648001, 206292713473,
  206292713473, 206292648001, 134283265, 206292713473, 206292648001, 206292713473, 206292713473, 206292648001,
  134283265, 206292713473, 207299411969, 206292713473, 134283265, 206292713473, 206292713473, 134283265, 206292713473,
  207299411969, 206292713473, 134283265, 206292713473, 206292713473, 134283265, 206292713473, 207299411969,
  206292713473, 134283265, 206292713473, 206292713473, 134283265, 206292713473, 207299411969, 206292713473, 134283265,
  206292713473, 206292713473, 134283265, 135266369, 135266369, 206292713473, 206292648001, 206292648001, 134283265,
  134283265, 65, 206292713473, 206292648001, 206292648001, 134283265, 134283265, 65, 3, 206292713473, 134283265,
  134283265, 134283265, 134283265, 134283265, 134283265, 134283265, 65537, 134283265, 134283265, 134283265, 134283265,
  134283265, 134283265, 134283265, 134283265, 134283265, 134283265, 208373153793, 134284289, 134283265, 134283265,
  134283265, 134283265, 134283265, 134283265, 65538, 134283265, 134283265, 134283265, 134283265, 134283265, 134283265,
  134283265, 134283265, 134283265, 134283265, 206292713473, 134283265, 134283265, 134283265, 134283265, 134283265,
  134283265, 134283265, 65537, 134283265, 134283265, 134283265, 134283265, 134283265, 134283265, 134283265, 134283265,
  134283265, 134283265, 206292713473, 134283265, 134283265, 134283265, 134283265, 134283265, 134283265, 134283265,
  65537, 134283265, 134283265, 134283265, 134283265, 134283265, 134283265, 134283265, 134283265, 134283265, 134283265,
  134283265, 65537, 65537, 65537, 134283265, 134283265, 134283265, 134283265, 65537, 134283265, 65537, 65537, 65537,
  134283265, 134283265, 134283265, 134283265, 65537, 134283265, 65537, 65537, 65537, 134283265, 134283265, 134283265,
  134283265, 65537, 134283265, 65537, 65537, 65537, 134283266, 134283266, 134283266, 134283266, 65537, 65537, 66561,
  65537, 66561, 206292713473, 134283265, 134283265, 134283265, 134283265, 134283265, 134283265, 134283265, 65537,
  134283265, 134283265, 134283265, 134283265, 134283265, 134283265, 134283265, 134283265, 134283265, 134283265,
  208373153793, 134284289, 134283265, 134283265, 134283265, 134283265, 134283265, 134283265, 65538, 134283265,
  134283265, 134283265, 134283265, 134283265, 134283265, 134283265, 134283265, 134283265, 134283265, 206292713473,
  134283265, 134283265, 134283265, 134283265, 134283265, 134283265, 134283265, 65537, 134283265, 134283265, 134283265,
  134283265, 134283265, 134283265, 134283265, 134283265, 134283265, 134283265, 206292713473, 134283265, 134283265,
  134283265, 134283265, 134283265, 134283265, 134283265, 65537, 134283265, 134283265, 134283265, 134283265, 134283265,
  134283265, 134283265, 134283265, 134283265, 134283265, 134283265, 65537, 137363521, 66562, 134283265, 65537,
  135331841, 66561]

def dene_CCD : List Nat := [
  1, 1, 65537, 1, 1, 1, 1, 1, 1, 1, 69, 65, 65537, 134217797, 65538, 134283268, 67239937, 65, 65537, 65537, 65, 66561,
  66561, 134283265, 134283265, 134284289, 68288515, 67585, 67585, 65537, 65537, 65537, 69, 131137, 1, 1, 65, 65, 1, 1,
  65537, 65, 65, 134283265, 67108993, 67108993, 65537, 65537, 67108993, 65537, 67108993, 65537, 67108993, 65537,
  67108993, 65537, 69337091, 134283265, 134283265, 134283266, 136315969, 67587, 67108993, 67108993, 134283265,
  134283265, 65, 65537, 65537, 134283265, 134283265, 134283266, 134283265, 65537, 66561, 134283265, 65537, 134283265,
  1, 134283265, 134283265, 134283265, 134283265, 134283265, 134283265, 134283265, 65537, 134283266, 65537, 1,
  134283265, 65537, 65537, 65537, 1, 131141, 65, 133186, 2230338, 204606529, 1278348353, 1209205826, 135464002,
  2283997251, 203556929, 132162, 1180738, 3279942, 2231366, 1182790, 134214, 131141, 134414401, 1, 134283265, 1, 1, 1,
  1, 134283266, 1, 134283268, 1, 1, 1, 1, 134283272, 1, 134283265, 134283268, 134283266, 134283267, 134283265, 1, 2,
  1, 1, 1, 134283269, 134283265, 1, 1, 206292713473, 65537, 206292713473, 206292713474, 206292713473, 206292713474,
  206292713473, 208373153795, 1, 134283270, 134283266, 1, 1, 1, 134283271, 134283267, 1, 65541, 1, 1, 134283272,
  134283268, 1, 1, 1, 134283269, 1, 1, 1, 1]

def dene_CC2 : List Nat := [
  1, 1, 1, 1, 65, 65537, 65537, 134283265, 1, 1, 1, 1, 1, 1, 1, 1, 1, 1, 1, 1, 65, 65, 65537, 67239937, 65537, 65537,
  65, 65537, 65, 65537, 65, 65, 65539, 65537, 134283266, 67585, 67585, 69, 65537, 201457731, 134283271, 65537, 131141,
  68719673477, 131137, 134217793, 131140, 3138, 65666, 67239941, 134283266, 67239937, 137506258945, 67239937,
  67239939, 67239941, 134283266, 65537, 65538, 65538, 135331841, 207366455297, 135331841, 134284289, 135331841,
  137640345602, 137640345601, 131140, 136380417, 136380417, 65, 206225670148, 65539, 67585, 65, 2113, 65666, 2113,
  65666, 1, 65539, 134283265, 134283265, 134283265, 134283265, 134283265, 206292713473, 134283265, 134283265,
  134283265, 206292713473, 134283265, 65537, 134283265, 134283265, 65537, 134283265, 134283265, 65537, 134283265,
  65537, 134283265, 206292713473, 134283265, 67239939, 134283265, 206292713473, 65537, 65537, 66561, 66561,
  206292713473, 206292713473, 206292713473, 1093, 65671, 1179713, 206158495875, 1275199553, 68988108931, 2113, 65666,
  65, 66, 65537, 134283266, 2115, 65668, 65, 131140, 65538, 134283265, 67239941, 67239937, 137640345601, 1, 1, 1, 1,
  65537, 65, 65537, 65, 65, 65, 137363521, 67239937, 67108993, 65537, 65537, 1, 1, 1, 1, 65537, 65537, 65, 65, 65537,
  134283265, 65537, 68288513, 134217793, 65, 65, 65, 67239937, 134283265, 134283265, 137363521, 67587, 135266369,
  137506258945, 67108993, 70385665, 134217793, 134283265, 65537, 65, 69337089, 208306044993, 67108993, 134283265,
  69208193, 140861505601, 67108993, 137506062529, 67108993, 134217793, 67587, 135266369, 65537, 67108993, 66561,
  66561, 65538, 134284289, 208373153793, 134283265, 134283265, 67108993, 67108993, 134283265, 134283265, 65538,
  134284289, 208373153793, 67108993, 67108993, 134283265, 134283265, 65, 65537, 134283265, 134283265, 134283265, 65,
  65537, 134283265, 67108993, 67108993, 65, 65537, 134283265, 134283265, 134283265, 65, 65537, 134283265, 67108993,
  67108993, 65, 65, 134283265, 134283265, 134283265, 134283266, 136315969, 206292713473, 134283265, 206292713473,
  206292713473, 134283265, 206292648001, 206292713473, 134283265, 206292648001, 137506062529, 137506062529,
  137506062529, 137506062529, 206292648001, 206292713473, 206292648001, 206292713473, 134284289, 134284289, 67239939,
  138714021953, 206292713473, 281681135272001, 67585, 65537, 65, 67585, 65537, 65, 65539, 67108993, 137506062529,
  137506062529, 137506062529, 134283265, 206292713473, 206292713473, 206292713473, 65537, 65537, 67108993, 134217793,
  134283265, 134283265, 67108993, 134283265, 69208193, 140861505601, 65539, 67108993, 137506062529, 67108993,
  137506062529, 65537, 65537, 67108993, 134217793, 206292713473, 206292713473, 206292713473, 206292713473, 134283265,
  134283265, 67108993, 134283265, 69208193, 140861505601, 67587, 136380417, 65537, 65537, 134283265, 67108993,
  134283265, 134283265, 134283265, 67108993, 67108993, 134283265, 65537, 134283265, 65537, 66561, 134283265,
  134283265, 134283266, 134283265, 134283265, 134283265, 134283266, 134283265, 65537, 134283266, 206292713474,
  134283265, 206292713473, 65538, 65537, 134283265, 134283265, 206292713474, 206292713474, 206292713473, 206292713473,
  134283265, 134283265, 134283265, 134283265, 134283265, 206292713473, 65537, 65537, 65537, 65537, 134283265,
  206292713473, 206292713473, 206292713473, 134283265, 206292713473, 206292713473, 206292713473, 65537, 65537,
  134283265, 134283265, 134283265, 134283265, 134283265, 134283265, 134283265, 206292713473, 65537, 65537, 65538,
  65537, 65537, 134283265, 134283265, 134283265, 1, 65537, 65537, 134283265, 134283265, 134283265, 134283265,
  134283265, 134283265, 134283265, 134283265, 206292713473, 134283265, 206292713473, 206292713473, 134283265,
  206292713473, 206292713473, 134283265, 206292713473, 206292713473, 134283265, 206292713473, 206292713473,
  206292713473, 206292713473, 206292713473, 206292713473, 206292713473, 206292713473, 206292713473, 134283265,
  134283265, 134283265, 206292713473, 206292713473, 281681269424129, 65537, 65537, 134283265, 134283265, 134283265,
  65537, 65537, 134283265, 134283266, 134283266, 1, 65537, 65537, 134283265, 134283265, 134283265, 65537, 134283265,
  206292713473, 134283265, 134283265, 134283265, 134283265, 134283265, 134283265, 65537, 65537, 134283265,
  206292713473, 134283265, 134283265, 134283265, 134283265, 134283265, 134283265, 65537, 65537, 134283265, 65537,
  65537, 134283265, 1, 65, 131138, 131142, 132165, 202506305, 133187, 134414404, 134209, 204603457, 131138, 134414401,
  134414406, 203554881, 137640542276, 1, 65, 1278345283, 204603459, 3425828931, 2352087107, 1276248131, 204606529,
  276086063171, 202506307, 1278348353, 1375597690947, 1209205826, 202506305, 1275199555, 135464002, 1276248129,
  201457731, 1305804537923, 206292910147, 2352087109, 3279942, 3355639878, 3425828933, 2231366, 2281898054, 204603461,
  1182790, 1208156230, 1278345285, 134214, 134414406, 2228289, 2351038533, 277159804994, 131137, 203554885,
  2476183060546, 203554881, 2283997251, 2348941381, 2336730841157, 2351038529, 203556929, 201457733, 137707585605,
  1179714, 132162, 131138, 1180738, 133186, 2230338, 278233546817, 1377745174593, 2477256802369, 3576768430145,
  131141, 201457733, 134414401, 275079364673, 275079364673, 211244007292993, 131141, 201457733, 1, 1, 134283265,
  134283265, 1, 134283265, 206292713473, 65537, 206292713473, 206292713473, 1, 65538, 1, 134283266, 134283266, 1, 1,
  134283268, 134283268, 1, 134283268, 206292713476, 65540, 206292713476, 206292713476, 1, 65544, 1, 134283272,
  134283272, 1, 134283265, 206292713473, 1, 2, 134283268, 134283266, 134283267, 134283265, 134283268, 134283266,
  134283267, 134283265, 1, 134283265, 134283267, 206292713475, 134283265, 206292713473, 65539, 65537, 206292713473,
  206225670147, 206292713475, 206292713475, 206292713473, 206292713473, 206292713473, 206292713475, 206292713473,
  206292713475, 206292713473, 281681269424129, 1, 134283269, 65542, 65541, 1, 134283265, 134283265, 206292713473,
  134283269, 134283269, 1, 134283266, 134283268, 206292713476, 206292713476, 206292713476, 134283266, 206292713474,
  206292713474, 206292713474, 65540, 65538, 206292713474, 206225670148, 206292713474, 206292713476, 206292713474,
  206292713476, 206292713474, 281681269424130, 1, 65537, 134283266, 134283265, 206292713473, 206292713473,
  206292713474, 206292713474, 206292713473, 206292713474, 206292713473, 208373153795, 281681269424129, 206292713473,
  281681269424129, 281681269424130, 206292713474, 281681269424130, 281681269424131, 206292713475, 281681202380803,
  281681269424132, 206292713476, 281681202380804, 281681269424129, 281681269424129, 281681269424130, 281681269424130,
  281681202380803, 281681269424131, 281681202380804, 281681269424132, 206292713473, 206292713475, 206292713473,
  281681269424129, 281681269424129, 360569651459063809, 1, 134283266, 134283266, 206292713474, 134283270, 134283270,
  1, 134283265, 206292713473, 281681269424129, 206292713473, 206292713474, 206292713473, 206292713473, 206292713474,
  206292713474, 1, 134283271, 65544, 65543, 1, 134283267, 134283267, 206292713475, 134283271, 134283271, 1, 65541, 1,
  134283269, 1, 134283268, 134283268, 206292713476, 134283272, 134283272, 1, 134283267, 206292713475, 281681269424131,
  206292713475, 206292713475, 206292713476, 206292713476, 206292713475, 206292713476, 1, 134283270, 1, 134283269,
  206292713477, 1, 1, 1, 1]

def dene_CCSD : List Nat := [
  1, 1, 1, 1, 65, 65537, 65, 67108993, 1, 1, 1, 1, 1, 1, 1, 1, 1, 1, 1, 1, 65, 65, 65537, 67239937, 65537, 65537, 65,
  65537, 65, 65537, 65, 65, 65539, 65537, 134283266, 67585, 67585, 69, 65537, 201457731, 134283271, 65537, 131141,
  68719673477, 131137, 134217793, 131140, 3138, 65666, 67239941, 134283266, 67239937, 137506258945, 67239937,
  67239939, 67239941, 134283266, 65537, 65538, 65538, 135331841, 207366455297, 135331841, 134284289, 135331841,
  137640345602, 137640345601, 131140, 136380417, 136380417, 65, 206225670148, 65539, 67585, 65, 2113, 65666, 2113,
  65666, 1, 65539, 134283265, 134283265, 134283265, 134283265, 134283265, 206292713473, 134283265, 134283265,
  134283265, 206292713473, 134283265, 65537, 134283265, 134283265, 65537, 134283265, 134283265, 65537, 134283265,
  65537, 134283265, 206292713473, 134283265, 67239939, 134283265, 206292713473, 65537, 65537, 66561, 66561,
  206292713473, 206292713473, 206292713473, 1093, 65671, 1179713, 206158495875, 1275199553, 68988108931, 2113, 65666,
  65, 66, 65537, 134283266, 2115, 65668, 65, 131140, 65538, 134283265, 67239941, 67239937, 137640345601, 1, 1, 1, 1,
  65537, 65, 65, 65537, 65537, 65, 70385665, 67239937, 67108993, 65537, 65537, 1, 1, 1, 1, 65537, 65, 65, 65537, 65,
  67239937, 135266369, 65, 134283265, 65537, 65537, 65537, 67239937, 67108993, 137506258945, 70385665, 134283265,
  67587, 135266369, 134283265, 67108993, 67239937, 67108993, 65, 136314945, 65, 139787829249, 67108993, 67108993,
  137506062529, 136382465, 209379721345, 134283265, 134217793, 67108993, 67587, 135266369, 65537, 67108993, 66561,
  66561, 134284289, 208373153793, 65538, 134283265, 134283265, 67108993, 67108993, 67108993, 67108993, 134284289,
  208373153793, 65538, 134283265, 134283265, 67108993, 67108993, 65537, 134283265, 65, 134283265, 134283265, 65537,
  134283265, 65, 67108993, 67108993, 65537, 134283265, 65, 134283265, 134283265, 65537, 134283265, 65, 67108993,
  67108993, 206292713473, 134283265, 206292713473, 206292713473, 134283265, 206292648001, 206292713473, 134283265,
  206292648001, 134283265, 134283265, 134284289, 134284289, 65, 65, 134283265, 134283266, 136315969, 137506062529,
  137506062529, 206292713473, 206292713473, 137506258945, 137506062529, 137506258945, 137506062529, 134217795,
  207232237697, 137506062529, 211243939987457, 67585, 65, 65537, 67585, 65, 65537, 65539, 134283265, 134283265,
  67108993, 67108993, 65537, 65, 67108993, 137506062529, 137506062529, 137506062529, 134283265, 206292713473,
  206292713473, 206292713473, 67108993, 67239937, 136382465, 209379721345, 65539, 134283265, 134283265, 67108993,
  67108993, 65537, 65, 137506062529, 137506062529, 206292713473, 206292713473, 67108993, 67239937, 67108993,
  137506062529, 134283265, 206292713473, 136382465, 209379721345, 67587, 136380417, 65537, 65537, 67108993, 67108993,
  67108993, 67108993, 67108993, 134283265, 67108993, 67108993, 65537, 134283265, 65537, 66561, 134283265, 134283265,
  134283266, 134283265, 134283265, 134283265, 134283266, 134283265, 65537, 134283265, 134283265, 134283265, 134283265,
  65538, 65537, 206292713474, 206292713474, 206292713473, 206292713473, 134283265, 134283265, 134283266, 206292713474,
  134283265, 206292713473, 134283265, 206292713473, 65537, 65537, 65537, 65537, 134283265, 134283265, 134283265,
  134283265, 65537, 65537, 134283265, 206292713473, 206292713473, 206292713473, 134283265, 206292713473, 206292713473,
  206292713473, 134283265, 134283265, 134283265, 206292713473, 65537, 65537, 65538, 65537, 134283265, 65537,
  134283265, 134283265, 1, 206292713473, 134283265, 206292713473, 206292713473, 134283265, 206292713473, 206292713473,
  134283265, 206292713473, 206292713473, 134283265, 206292713473, 134283265, 134283265, 134283265, 134283265,
  134283265, 134283265, 65537, 65537, 134283265, 134283265, 134283265, 134283265, 206292713473, 206292713473,
  206292713473, 206292713473, 206292713473, 206292713473, 206292713473, 206292713473, 134283265, 206292713473,
  206292713473, 281681269424129, 65537, 134283265, 65537, 134283265, 134283265, 65537, 134283265, 65537, 134283266,
  134283266, 1, 65537, 134283265, 65537, 134283265, 134283265, 134283265, 206292713473, 65537, 134283265, 134283265,
  134283265, 134283265, 134283265, 134283265, 65537, 134283265, 206292713473, 65537, 134283265, 134283265, 134283265,
  134283265, 134283265, 134283265, 65537, 65537, 134283265, 65537, 65537, 134283265, 1, 65, 131138, 131142, 132165,
  202506305, 133187, 134414404, 134209, 204603457, 131138, 134414401, 134414406, 203554881, 137640542276, 1, 65,
  1278345283, 204603459, 3425828931, 2352087107, 1276248131, 204606529, 276086063171, 202506307, 1278348353,
  1375597690947, 1209205826, 202506305, 1275199555, 135464002, 1276248129, 201457731, 1305804537923, 206292910147,
  2352087109, 3279942, 3355639878, 3425828933, 2231366, 2281898054, 204603461, 1182790, 1208156230, 1278345285,
  134214, 134414406, 2228289, 2351038533, 277159804994, 131137, 203554885, 2476183060546, 203554881, 2283997251,
  2348941381, 2336730841157, 2351038529, 203556929, 201457733, 137707585605, 1179714, 132162, 131138, 1180738, 133186,
  2230338, 278233546817, 1377745174593, 2477256802369, 3576768430145, 131141, 201457733, 134414401, 275079364673,
  275079364673, 211244007292993, 131141, 201457733, 1, 134283265, 1, 134283265, 1, 134283265, 65537, 206292713473,
  206292713473, 206292713473, 1, 65538, 1, 134283266, 134283266, 1, 134283268, 1, 134283268, 1, 134283268, 65540,
  206292713476, 206292713476, 206292713476, 1, 65544, 1, 134283272, 134283272, 1, 134283265, 206292713473, 1, 2,
  134283268, 134283266, 134283267, 134283265, 134283268, 134283266, 134283267, 134283265, 1, 134283265, 206292713473,
  206292713475, 206292713473, 206292713475, 65539, 65537, 206292713475, 206292713475, 206292713473, 206292713473,
  206292713473, 206225670147, 134283267, 206292713475, 134283265, 206292713473, 206292713473, 281681269424129, 1,
  134283269, 65542, 65541, 1, 134283265, 206292713473, 134283265, 134283269, 134283269, 1, 134283266, 206292713474,
  206292713476, 206292713474, 206292713476, 65540, 65538, 134283268, 206292713476, 206292713476, 206292713476,
  134283266, 206292713474, 206292713474, 206292713474, 206292713474, 206225670148, 206292713474, 281681269424130, 1,
  65537, 281681269424129, 206292713473, 281681269424129, 281681269424130, 206292713474, 281681269424130,
  281681269424131, 206292713475, 281681202380803, 281681269424132, 206292713476, 281681202380804, 206292713473,
  206292713473, 206292713474, 206292713474, 206292713473, 206292713475, 134283266, 134283265, 206292713473,
  206292713474, 206292713473, 208373153795, 281681269424129, 281681269424129, 281681269424130, 281681269424130,
  281681202380803, 281681269424131, 281681202380804, 281681269424132, 206292713473, 281681269424129, 281681269424129,
  360569651459063809, 1, 134283266, 206292713474, 134283266, 134283270, 134283270, 1, 206292713473, 281681269424129,
  134283265, 206292713473, 206292713473, 206292713474, 206292713474, 206292713473, 206292713474, 1, 134283271, 65544,
  65543, 1, 134283267, 206292713475, 134283267, 134283271, 134283271, 1, 65541, 1, 134283269, 1, 134283268,
  206292713476, 134283268, 134283272, 134283272, 1, 206292713475, 281681269424131, 134283267, 206292713475,
  206292713476, 206292713475, 206292713475, 206292713476, 206292713476, 1, 134283270, 1, 134283269, 206292713477, 1,
  1, 1, 1]

def dene_CCSD_S_1_1 : List Nat := [
  1, 1, 1, 1, 1, 1, 1, 1, 4, 65537, 65537, 134283265, 1, 65, 65537, 134283265, 65537, 65537, 1, 1, 1, 1, 1, 1, 1, 1,
  1, 1, 1, 1, 1, 1, 1, 1, 1, 1, 1, 1, 1, 1, 1, 1, 1, 1, 1, 65, 65539, 131140, 134283265, 131140, 67239938, 67239938,
  7, 1179714, 1089, 65, 65537, 65537, 65537, 65, 65537, 65537, 134217797, 1, 134217793, 134217793, 65, 134283265,
  134283265, 65537, 67240961, 135331842, 66561, 134285313, 136380417, 67585, 67243009, 137428996, 68609, 134283265,
  134283268, 65537, 65, 65537, 1, 131137, 65, 134283265, 65537, 131137, 65, 65, 65537, 65537, 65537, 65537, 65537, 67,
  65537, 65537, 67241985, 136380423, 134284289, 135331841, 67, 65537, 67239937, 134284289, 1, 134217793, 134217793,
  65, 134283265, 134283265, 65537, 1, 134217793, 134217793, 134217797, 134217793, 206158561345, 206158561345, 131137,
  66, 134283265, 67239937, 134283271, 134283267, 206292713473, 206292713475, 134283265, 65538, 65, 65537, 67239937,
  134283265, 65537, 68, 65537, 65537, 65537, 1, 134217793, 134217793, 65, 1, 65, 65537, 134283265, 65, 134217795, 71,
  65537, 65, 131140, 134283265, 131138, 67239938, 206292648001, 206292648001, 134217793, 201457731, 206294810625,
  208440197121, 136380417, 206225670146, 65, 65537, 65537, 65537, 1, 201457729, 131137, 131137, 131137, 65,
  206292713473, 134283265, 134283265, 134283265, 65537, 65, 65537, 67, 65537, 206158561345, 131143, 134217797,
  206292713473, 134283265, 134283265, 65537, 134283265, 206292713473, 134283265, 134283265, 134283265, 65537,
  206292713473, 134283265, 134283265, 65537, 134283265, 206292713473, 134283265, 134283265, 134283265, 65537,
  206292713473, 134283265, 134283265, 65537, 134283265, 206292713473, 134283265, 134283265, 134283265, 65537,
  206292713473, 134283265, 134283265, 65537, 134283265, 206292713473, 134283265, 134283265, 134283265, 65537,
  206292713473, 134283265, 134283265, 69, 65538, 65, 131137, 201457735, 137640345602, 131141, 135331841, 134283265,
  134283265, 67239939, 134283265, 2, 137642442753, 208440197123, 136380417, 67241985, 67585, 206293762049,
  207366455297, 135331841, 134284289, 66561, 134283265, 134283265, 65537, 206292713473, 206292713473, 206292713473,
  134283265, 134283265, 65537, 134283265, 134283265, 65537, 206292713473, 206292713473, 206292713473, 134283265,
  134283265, 65537, 65537, 67585, 67585, 68, 134217793, 134283265, 65537, 65537, 135331842, 67240961, 136380417,
  134285313, 134283265, 206292713473, 206292713473, 134283265, 206292713473, 134283265, 134283265, 134283265,
  134283265, 206292713473, 206292713473, 134283265, 206292713473, 134283265, 134283265, 134283265, 65537, 65,
  134217795, 134283265, 70, 67239941, 134283265, 134283265, 134283265, 134283265, 134283265, 65537, 65, 67587, 67587,
  4, 1208156226, 1181761, 1094, 4, 134414404, 136314947, 72, 6, 281475178168385, 206292648001, 134217793, 66, 68,
  65537, 1, 134217793, 65, 67243009, 68609, 1, 206292713479, 134283265, 134283266, 67239937, 134283271, 65537, 1,
  134283265, 65537, 1, 67, 206158561345, 131137, 206292648001, 134217793, 65, 134217797, 1, 68, 65, 134217793, 1,
  65537, 65537, 134283265, 65537, 2, 65, 67, 71, 72, 8, 2115, 65, 65, 1, 1, 71, 1, 1, 1, 1, 1, 1, 1, 1, 1, 1, 1, 1, 1,
  1, 1, 65, 65537, 65537, 65, 65537, 65537, 65, 65537, 134217793, 134283265, 134283265, 65537, 65537, 134217793,
  65537, 135266369, 2, 1, 65, 1, 65, 65, 65, 1089, 1, 1, 1, 1, 1, 1, 1, 1, 1, 1, 1, 1, 1, 1, 1, 65, 67587, 67587,
  67587, 67587, 65537, 134283265, 135266369, 136380417, 208306044993, 134285313, 207366389825, 134285313,
  207366389825, 135266369, 134218819, 207233286273, 135266369, 136382465, 209379721345, 206294810625, 282780646834305,
  135266369, 135266369, 134283265, 134283265, 206292648001, 206292713473, 135266369, 134283265, 134217793,
  208306044993, 208373153793, 208373153793, 134283265, 134283265, 134283265, 134283265, 134217793, 134283265,
  134283265, 67585, 67585, 65, 65537, 134217793, 134283265, 67239937, 134284289, 134283266, 134283266, 134283266,
  134283266, 65, 134283265, 134283265, 206292713474, 206292713474, 206292713473, 206292713473, 206292713473,
  206292713473, 206292713473, 206292713473, 206292713473, 206292713473, 206292648001, 206292713473, 206292648001,
  206292713473, 134283265, 206292713473, 206292713473, 134283265, 206292713473, 206292713473, 134283265, 67108993,
  134283265, 136314945, 134283265, 134283265, 134283266, 134283266, 134283265, 134283265, 65, 134283265, 134283265,
  65537, 134283265, 134283265, 134283265, 134283265, 134217793, 134283265, 134283265, 134283265, 134283265, 134283265,
  67108993, 134283266, 134284289, 134283266, 134284289, 134283266, 134283265, 134283265, 134283266, 134283266, 65,
  134283265, 134283265, 65539, 65539, 65537, 134217793, 134283265, 134283265, 134283265, 134283265, 134283265,
  134283265, 134283265, 134217793, 134283265, 134283265, 134217793, 134283265, 134283265, 134283265, 134217793,
  134283265, 65, 65537, 206292713474, 206292713474, 134283266, 134283265, 134283265, 134283265, 134283265,
  206292713473, 206292713473, 134283265, 134283265, 134217793, 134283265, 134283265, 206292713473, 206292713473,
  134283265, 206292713473, 206292713473, 134283265, 206292713473, 206292713473, 134283265, 134283265, 65, 65537,
  65537, 65537, 206292648001, 206292713473, 206292648001, 134283265, 206292648001, 206292713473, 206292648001,
  134283265, 1, 206292713474, 134283266, 65538, 206292713474, 134283266, 65538, 206292713474, 134283266, 65538,
  206292713474, 134283266, 65538, 65, 65537, 65537, 65537, 65537, 1089, 134283265, 134283265, 134283265, 134283265,
  65537, 65537, 65537, 65537, 65, 65537, 65537, 65, 65537, 67108993, 134283265, 134285313, 137363521, 134283267,
  134285313, 137363521, 134283267, 65537, 134283265, 134283265, 1089, 65537, 134283266, 134283266, 134283266,
  134283266, 134283266, 134283266, 134283266, 134283266, 134283266, 134283266, 134283266, 134283266, 67108993,
  134283267, 134283267, 134283265, 134283265, 134283265, 134283265, 65, 65537, 206158561345, 134217793, 206292713473,
  134283265, 206292713473, 134283265, 206292713473, 134283265, 206292713473, 134283265, 206292713473, 134283265,
  206292713473, 134283265, 206292713473, 134283265, 206292713473, 134283265, 206292713473, 134283265, 1, 206292713473,
  206292713473, 206292713473, 134283265, 65537, 206292713473, 206292713473, 206292713473, 134283265, 65537, 65537,
  66561, 66561, 135331841, 65, 65538, 65538, 65537, 134217793, 134283265, 134283265, 134283265, 134283265, 134283265,
  134283265, 134283265, 134283265, 134283265, 134283265, 134283265, 134283265, 134283265, 134283265, 134283265,
  134283265, 134283265, 66562, 66, 65538, 65538, 65538, 65538, 4, 65, 65, 65, 65, 4, 1090, 65537, 134283265,
  134283265, 134283266, 134283265, 134283265, 134283265, 134283265, 134283266, 134283265, 134283265, 134283265,
  134283266, 134283265, 65537, 66561, 65537, 65537, 65538, 134283265, 206292713473, 206292713473, 206292713473,
  134283265, 206292713473, 206292713473, 134283265, 65537, 134283265, 134283265, 134283265, 134283265, 206292713473,
  206292713473, 134283265, 134283265, 134283265, 134283265, 134283265, 206292713473, 206292713473, 134283265,
  206292713473, 134283265, 65537, 206292713473, 134283265, 65537, 65537, 65537, 65537, 134283265, 206292713473,
  206292713474, 206292713474, 206292713473, 206292713473, 134283265, 134283265, 65537, 134283265, 134283265,
  134283265, 134283265, 134283265, 134283265, 134283265, 134283265, 206292713474, 206292713474, 134283266,
  206292713473, 206292713473, 134283265, 206292713474, 134283266, 65538, 206292713473, 134283265, 65537, 134283265,
  65537, 65537, 134283265, 134283265, 134283265, 65537, 1, 134283265, 65537, 65537, 134283265, 134283265, 134283265,
  65537, 134283265, 65537, 65537, 134283266, 134283266, 134283266, 65537, 134283265, 206292713473, 206292713473,
  281681269424129, 206292713473, 206292713473, 206292713473, 206292713473, 206292713473, 206292713473, 206292713473,
  206292713473, 134283265, 134283265, 134283265, 134283265, 134283265, 134283265, 206292713473, 206292713473,
  206292713473, 134283265, 206292713473, 206292713473, 206292713473, 134283265, 134283265, 134283265, 134283265,
  134283265, 134283265, 134283265, 134283265, 134283265, 206292713473, 134283265, 206292713473, 134283265,
  206292713473, 134283265, 206292713473, 134283265, 206292713473, 134283265, 206292713473, 134283265, 206292713473,
  134283265, 206292713473, 134283265, 206292713473, 206292713473, 206292713473, 134283265, 65537, 206292713473,
  206292713473, 206292713473, 134283265, 65537, 1, 134283265, 65537, 65537, 134283265, 134283265, 134283265, 65537,
  65537, 206292713473, 134283265, 134283265, 134283265, 65537, 134283265, 134283265, 134283265, 134283265, 134283265,
  134283265, 134283265, 134283265, 65537, 206292713473, 134283265, 134283265, 134283265, 65537, 134283265, 134283265,
  134283265, 134283265, 134283265, 134283265, 134283265, 134283265, 134283265, 65537, 1, 1, 1, 1, 1, 1, 1, 1, 1, 1, 1,
  1, 1, 65, 1, 1, 1, 1, 1, 1, 1, 1, 1, 1, 1, 1, 1, 65, 65, 1, 1, 1, 1, 1, 1, 1, 1, 1, 1, 1, 1, 1, 1, 1, 1, 65537,
  134217793, 65537, 134217793, 65, 65537, 65537, 65, 67108994, 67108993, 66561, 134283265, 134283265, 134283265,
  206292648001, 134283265, 67108993, 65537, 134283265, 65, 65537, 65537, 65537, 65, 65537, 65537, 65537, 65, 65537,
  65537, 67239937, 67108993, 69337089, 65537, 134217793, 134283265, 134283265, 2, 134217793, 134283265, 134217793, 66,
  65, 67239937, 65, 65537, 65537, 1089, 65537, 67108993, 68288513, 65537, 65537, 135266369, 1, 65, 65, 206292648001,
  206158561345, 206292648001, 206158561345, 206158561345, 65, 134283265, 134217793, 65, 134283265, 134217793,
  134217793, 66, 65, 65, 1, 65537, 1, 65537, 65, 65537, 134283265, 65537, 134283265, 65537, 65537, 1, 202506305,
  132165, 201460801, 204603457, 134209, 201457729, 131137, 201457729, 201457729, 134414406, 203554881, 275012321345,
  137640542276, 134414401, 131138, 201457729, 134414404, 131138, 131137, 201457729, 131137, 65, 131137, 133187,
  131142, 1, 201457733, 3279942, 1278345283, 275012321345, 201457729, 201457729, 201460801, 131137, 278233546817,
  3355639878, 2352087109, 2231366, 204603459, 1374523949121, 1275199553, 1275199553, 1275202625, 1179713,
  1377745174593, 2281898054, 3425828933, 1182790, 3425828931, 2474035576897, 2348941377, 2348941377, 2348944449,
  2228289, 2477256802369, 1208156230, 204603461, 134214, 2352087107, 3573547204673, 3422683201, 3422683201,
  3422686273, 3276865, 3576768430145, 134414406, 1278345285, 2283997251, 2348941381, 203556929, 201457733, 201459777,
  2351038533, 2228289, 2336730841157, 275081461825, 277159804994, 203554881, 201459777, 133186, 2348943425, 203554885,
  131137, 137707585605, 2474104717377, 2476183060546, 2351038529, 2348943425, 2230338, 132162, 1180738, 201458753,
  275080413249, 276086063171, 202506305, 1305804537923, 204606529, 1276248131, 201458753, 1275200577, 1374592041025,
  1375597690947, 1276248129, 206292910147, 1278348353, 202506307, 1275200577, 1275199555, 1209205826, 201457731,
  135464002, 275079364673, 134414401, 131141, 211244007292993, 275079364673, 201457733, 1179714, 131138, 65, 131141,
  1, 201457729, 201457729, 131137, 131138, 131137, 65, 1, 201457729, 134414401, 201457733, 201459777, 275079364673,
  275012321346, 201457729, 131138, 201460801, 134209, 275012321347, 201457729, 201457731, 134414401, 201458753,
  131138, 275012321345, 134414401, 275079364673, 201457729, 131137, 201457733, 131137, 201457731, 131138, 134414401,
  65, 131142, 1, 134283266, 134283266, 134283266, 1, 1, 65537, 1, 206292713474, 206292713474, 206292713474,
  206292713474, 206292713474, 134283266, 65538, 134283266, 1, 134283265, 134283265, 134283265, 1, 134283272,
  134283272, 134283272, 1, 1, 65540, 1, 206292713480, 206292713480, 206292713480, 206292713480, 206292713480,
  134283272, 65544, 134283272, 1, 134283268, 134283268, 134283268, 1, 134283269, 206292713477, 134283269, 134283271,
  134283270, 134283272, 134283269, 134283270, 134283271, 134283272, 134283269, 134283270, 134283271, 134283272, 1, 2,
  1, 134283265, 65537, 65539, 1, 206292713477, 281681269424133, 206292713477, 206292713477, 206292713477,
  206292713478, 206292713478, 206292713478, 134283269, 206292713477, 206292713477, 206292713477, 206292713477,
  206292713477, 206292713477, 134283269, 206292713478, 206225670150, 206292713478, 206292713478, 206292713478,
  206292713478, 134283270, 206292713478, 134283270, 65542, 206292713477, 134283269, 65541, 1, 206292713477, 134283269,
  134283269, 134283265, 134283265, 134283265, 134283269, 1, 134283266, 65538, 65540, 1, 65537, 1, 206292713478,
  134283270, 134283270, 134283266, 134283266, 134283266, 134283270, 1, 134283265, 1, 206292713479, 281681269424135,
  206292713479, 206292713479, 206292713480, 206292713480, 206292713479, 206292713480, 134283271, 206292713479,
  206292713479, 206292713479, 206292713479, 206292713480, 206225670152, 206292713480, 206292713480, 206292713479,
  206292713479, 134283271, 206292713480, 206292713480, 134283272, 206292713479, 134283271, 65543, 206292713480,
  134283272, 65544, 1, 206292713479, 134283271, 134283271, 134283267, 134283267, 134283267, 134283271, 1,
  206292713477, 281681269424133, 281681269424133, 360569651459063813, 281681269424133, 281681269424133,
  281681269424135, 281681269424135, 281681202380806, 281681269424134, 281681202380808, 281681269424136, 206292713477,
  208373153798, 206292713477, 206292713477, 206292713478, 206292713478, 281681202380806, 281681269424134,
  281681202380806, 206292713478, 281681202380808, 281681269424136, 281681202380808, 206292713480, 206292713477,
  209446895622, 206292713477, 206292713479, 206292713477, 206292713479, 206292713477, 206292713479, 281681269424133,
  206292713477, 281681269424133, 206292713477, 281681269424135, 206292713479, 281681269424135, 206292713479,
  281681269424134, 206292713478, 281681269424134, 206292713478, 281681269424136, 206292713480, 281681269424136,
  206292713480, 281681269424135, 281681269424135, 281681269424135, 206292713479, 67239942, 281681269424133,
  281681269424133, 281681269424133, 206292713477, 134283269, 65541, 1, 281681269424133, 206292713477, 206292713477,
  206292713479, 134283269, 206292713477, 206292713477, 206292713477, 206292713477, 206292713479, 206292713479,
  206292713479, 206292713479, 1, 206292713480, 134283272, 134283272, 134283268, 134283268, 134283268, 134283272, 1,
  134283267, 1, 281681269424134, 206292713478, 206292713478, 206292713480, 134283270, 206292713478, 206292713478,
  206292713478, 206292713478, 206292713480, 206292713480, 206292713480, 206292713480, 1, 206292713473, 134283265, 1,
  1, 1, 1, 1, 134283266, 134283266, 1, 65537, 1, 65537, 1, 134283265, 65537, 1, 134283265, 65537, 1, 134283265, 65537,
  1, 206292713473, 134283265, 134283265, 1, 65537, 1, 134283265, 1, 134283265, 134283265, 206292713473, 206292713473,
  206292713473, 206292713473, 65537, 1, 206292713473, 206292713473, 281681269424129, 206292713473, 206292713473,
  206292713473, 206292713473, 206292713473, 206292713473, 206292713473, 281681269424129, 281681269424129,
  281681269424129, 281681269424129, 281681269424129, 134283265, 206292713473, 206292713473, 65537, 1, 134283265,
  134283265, 1, 206292713473, 206292713473, 206292713473, 206292713473, 134283265]

def dene_CCSD_SD_1_1 : List Nat := [
  1, 1, 1, 1, 1, 1, 1, 1, 4, 65537, 65537, 134283265, 1, 65, 65537, 134283265, 65537, 65537, 1, 1, 1, 1, 1, 1, 1, 1,
  1, 1, 1, 1, 1, 1, 1, 1, 1, 1, 1, 1, 1, 1, 1, 1, 1, 1, 1, 1, 65, 65539, 131140, 134283265, 131140, 67239938,
  67239938, 7, 1179714, 1089, 65, 65537, 65537, 65537, 65, 65537, 65537, 134217797, 1, 67240961, 135331842, 66561,
  134285313, 136380417, 67585, 134217793, 134217793, 65, 134283265, 134283265, 65537, 67243009, 137428996, 68609,
  134283265, 134283268, 65537, 65, 65537, 1, 131137, 65, 134283265, 65537, 131137, 65, 65, 65537, 65537, 65537, 65537,
  65537, 67, 65537, 65537, 67241985, 136380423, 134284289, 135331841, 67, 65537, 67239937, 134284289, 1, 134217793,
  134217793, 65, 134283265, 134283265, 65537, 1, 134217793, 134217793, 134217797, 134217793, 206158561345,
  206158561345, 131137, 66, 134283265, 67239937, 134283271, 134283267, 206292713473, 206292713475, 134283265, 65538,
  65, 65537, 67239937, 134283265, 65537, 68, 65537, 65537, 65537, 1, 134217793, 134217793, 65, 65, 65537, 1,
  134283265, 65537, 135331841, 66561, 65, 134217795, 71, 65537, 65, 131140, 134283265, 131138, 67239938, 206292648001,
  206292648001, 134217793, 201457731, 206294810625, 208440197121, 136380417, 206225670146, 65, 65537, 65537, 65537, 1,
  201457729, 131137, 131137, 131137, 65, 206292713473, 134283265, 134283265, 134283265, 65537, 65, 65537, 67, 65537,
  206158561345, 131143, 134217797, 206292713473, 134283265, 134283265, 65537, 134283265, 206292713473, 134283265,
  134283265, 134283265, 65537, 206292713473, 134283265, 134283265, 65537, 134283265, 206292713473, 134283265,
  134283265, 134283265, 65537, 206292713473, 134283265, 134283265, 65537, 134283265, 206292713473, 134283265,
  134283265, 134283265, 65537, 206292713473, 134283265, 134283265, 65537, 134283265, 206292713473, 134283265,
  134283265, 134283265, 65537, 206292713473, 134283265, 134283265, 68, 131140, 134283265, 65537, 65537, 135331842,
  67240961, 136380417, 134285313, 134283265, 206292713473, 206292713473, 134283265, 206292713473, 134283265,
  134283265, 134283265, 134283265, 206292713473, 206292713473, 134283265, 206292713473, 134283265, 134283265,
  134283265, 65537, 65, 134217795, 134283265, 70, 67239941, 134283265, 134283265, 134283265, 134283265, 134283265,
  65537, 69, 65538, 65, 131137, 201457735, 137640345602, 131141, 135331841, 134283265, 134283265, 67239939, 134283265,
  2, 137642442753, 208440197123, 136380417, 67241985, 67585, 206293762049, 207366455297, 135331841, 134284289, 66561,
  134283265, 134283265, 65537, 206292713473, 206292713473, 206292713473, 134283265, 134283265, 65537, 134283265,
  134283265, 65537, 206292713473, 206292713473, 206292713473, 134283265, 134283265, 65537, 65537, 67585, 67585, 65,
  67587, 67587, 4, 1208156226, 1181761, 1094, 4, 134414404, 136314947, 72, 6, 281475178168385, 206292648001,
  134217793, 66, 68, 65537, 134217793, 65537, 65537, 65537, 65537, 1, 134218817, 1089, 134283265, 65537, 65537,
  134283265, 65537, 65537, 134283265, 65537, 134283265, 65537, 65, 65537, 1, 134217793, 134217793, 65, 67243009,
  67243009, 68609, 1, 206292713479, 134283265, 134283266, 67239937, 134283271, 65537, 1, 134283265, 65537, 1, 65, 67,
  206158561345, 206158561345, 131137, 206292648001, 134217793, 65, 134217793, 134217797, 1, 65, 68, 65, 134217793,
  134217793, 65, 67, 71, 2, 65537, 72, 8, 2115, 65, 1, 65, 65, 71, 1, 1, 1, 1, 1, 1, 1, 1, 1, 1, 1, 1, 1, 1, 1, 1, 65,
  65537, 65537, 65, 65537, 65537, 65, 65537, 134217793, 134283265, 134283265, 65537, 65537, 134217793, 65537,
  135266369, 2, 1, 65, 65, 1, 65, 65, 1089, 1, 1, 1, 1, 1, 1, 1, 1, 1, 1, 1, 1, 1, 1, 1, 1, 65, 67587, 67587, 67587,
  67587, 65537, 134283265, 135266369, 136380417, 208306044993, 134285313, 207366389825, 134285313, 207366389825,
  135266369, 134218819, 207233286273, 135266369, 136382465, 209379721345, 206294810625, 282780646834305, 135266369,
  135266369, 134283265, 134283265, 206292648001, 206292713473, 135266369, 134283265, 134217793, 208306044993,
  208373153793, 208373153793, 134283265, 134283265, 134283265, 134283265, 134217793, 134283265, 134283265, 67585,
  67585, 65, 134283265, 134283265, 206292713474, 206292713474, 206292713473, 206292713473, 206292713473, 206292713473,
  206292713473, 206292713473, 206292713473, 206292713473, 206292648001, 206292713473, 206292648001, 206292713473,
  134283265, 206292713473, 206292713473, 134283265, 206292713473, 206292713473, 134283265, 67108993, 134283265,
  136314945, 134283265, 134283265, 134283266, 134283266, 134283265, 134283265, 65, 65537, 134217793, 134283265,
  67239937, 134284289, 134283266, 134283266, 134283266, 134283266, 65, 134283265, 134283265, 65537, 134283265,
  134283265, 134283265, 134283265, 134217793, 134283265, 134283265, 134283265, 134283265, 134283265, 67108993,
  134283266, 134284289, 134283266, 134284289, 134283266, 134283265, 134283265, 134283266, 134283266, 65, 134283265,
  134283265, 65539, 65539, 65537, 134217793, 134283265, 134283265, 134283265, 134283265, 134283265, 134283265,
  134283265, 134217793, 134283265, 134283265, 134217793, 134283265, 134283265, 134283265, 134217793, 134283265, 65,
  65537, 206292713474, 206292713474, 134283266, 134283265, 134283265, 134283265, 134283265, 206292713473,
  206292713473, 134283265, 134283265, 134217793, 134283265, 134283265, 206292713473, 206292713473, 134283265,
  206292713473, 206292713473, 134283265, 206292713473, 206292713473, 134283265, 134283265, 65, 65537, 65537, 65537,
  206292648001, 206292713473, 206292648001, 134283265, 206292648001, 206292713473, 206292648001, 134283265, 1,
  206292713474, 134283266, 65538, 206292713474, 134283266, 65538, 206292713474, 134283266, 65538, 206292713474,
  134283266, 65538, 65, 65537, 65537, 65537, 65537, 1089, 134283265, 134283265, 134283265, 134283265, 65537, 65537,
  65537, 65537, 65, 65537, 65537, 65537, 65, 65537, 65537, 67108993, 134283265, 134285313, 137363521, 134283267,
  134285313, 137363521, 134283267, 65537, 134283265, 134283265, 1089, 65537, 134283266, 134283266, 134283266,
  134283266, 134283266, 134283266, 65537, 134283266, 134283266, 134283266, 134283266, 134283266, 134283266, 67108993,
  134283267, 134283267, 134283265, 134283265, 134283265, 134283265, 65, 65537, 206158561345, 134217793, 206292713473,
  134283265, 206292713473, 134283265, 206292713473, 134283265, 206292713473, 134283265, 206292713473, 134283265,
  206292713473, 134283265, 206292713473, 134283265, 206292713473, 134283265, 206292713473, 134283265, 65, 135266369,
  134283265, 135266369, 1, 206292713473, 206292713473, 206292713473, 134283265, 65537, 206292713473, 206292713473,
  206292713473, 134283265, 65537, 65537, 66561, 66561, 135331841, 65, 65538, 65538, 65537, 134217793, 134283265,
  134283265, 134283265, 134283265, 134283265, 134283265, 134283265, 134283265, 134283265, 134283265, 134283265,
  134283265, 134283265, 134283265, 134283265, 134283265, 134283265, 66562, 66, 65538, 65538, 65538, 65538, 4, 65, 65,
  65, 65, 4, 1090, 65537, 134283265, 134283265, 134283265, 134283266, 134283265, 134283265, 134283266, 134283265,
  134283265, 134283265, 134283265, 134283266, 134283265, 65537, 66561, 65537, 65537, 65538, 134283265, 206292713473,
  206292713473, 206292713473, 134283265, 206292713473, 206292713473, 134283265, 65537, 134283265, 134283265,
  134283265, 134283265, 206292713473, 206292713473, 134283265, 134283265, 134283265, 134283265, 134283265,
  206292713473, 206292713473, 134283265, 206292713473, 134283265, 65537, 206292713473, 134283265, 65537, 65537, 65537,
  65537, 134283265, 206292713473, 206292713474, 206292713474, 206292713473, 206292713473, 134283265, 134283265, 65537,
  134283265, 134283265, 134283265, 134283265, 134283265, 134283265, 134283265, 134283265, 206292713474, 206292713474,
  134283266, 206292713473, 206292713473, 134283265, 206292713473, 134283265, 65537, 206292713474, 134283266, 65538,
  134283265, 65537, 65537, 134283265, 134283265, 134283265, 65537, 1, 134283265, 65537, 65537, 134283265, 134283265,
  134283265, 65537, 134283265, 65537, 65537, 134283266, 134283266, 134283266, 65537, 134283265, 206292713473,
  206292713473, 281681269424129, 206292713473, 206292713473, 206292713473, 206292713473, 206292713473, 206292713473,
  206292713473, 206292713473, 134283265, 134283265, 134283265, 134283265, 134283265, 134283265, 206292713473,
  206292713473, 206292713473, 134283265, 206292713473, 206292713473, 206292713473, 134283265, 134283265, 134283265,
  134283265, 134283265, 134283265, 134283265, 134283265, 134283265, 206292713473, 134283265, 206292713473, 134283265,
  206292713473, 134283265, 206292713473, 134283265, 206292713473, 134283265, 206292713473, 134283265, 206292713473,
  134283265, 206292713473, 134283265, 134283265, 134283265, 206292713473, 206292713473, 206292713473, 134283265,
  65537, 206292713473, 206292713473, 206292713473, 134283265, 65537, 1, 134283265, 65537, 65537, 134283265, 134283265,
  134283265, 65537, 65537, 206292713473, 134283265, 134283265, 134283265, 65537, 134283265, 134283265, 134283265,
  134283265, 134283265, 134283265, 134283265, 134283265, 65537, 206292713473, 134283265, 134283265, 134283265, 65537,
  134283265, 134283265, 134283265, 134283265, 134283265, 134283265, 134283265, 134283265, 134283265, 65537, 1, 1, 1,
  1, 1, 1, 1, 1, 1, 1, 1, 1, 1, 1, 65, 65, 1, 1, 1, 1, 1, 1, 1, 1, 1, 1, 1, 1, 1, 1, 1, 65, 65, 65, 1, 1, 1, 1, 1, 1,
  1, 1, 1, 1, 1, 1, 1, 1, 1, 1, 1, 1, 65537, 134217793, 65537, 134217793, 65, 65537, 65537, 65537, 65537, 65537,
  66561, 65537, 134283265, 134283265, 134283265, 134283265, 134283265, 206292648001, 206292648001, 134283265,
  134283265, 67108996, 67108996, 134283265, 134283265, 65537, 65, 65537, 65537, 65537, 65, 65537, 65537, 65537, 65,
  65537, 65537, 67239937, 67108993, 69337089, 65537, 134217793, 134283265, 134283265, 2, 134217793, 134283265,
  134217793, 66, 65, 65537, 65, 65537, 67108994, 67108994, 67108993, 67108993, 65, 65537, 65537, 1089, 65537,
  67108993, 68288513, 65537, 65, 65, 68288513, 67239937, 65537, 135266369, 1, 65, 65, 206292648001, 206158561345,
  206292648001, 206158561345, 206158561345, 65, 134283265, 134217793, 65, 134283265, 134217793, 134217793, 66, 65, 65,
  65, 1, 65537, 1, 65537, 65, 65537, 134283265, 65537, 134283265, 65537, 65537, 1, 202506305, 132165, 201460801,
  204603457, 134209, 201457729, 131137, 201457729, 201457729, 134414406, 203554881, 275012321345, 137640542276,
  134414401, 131138, 201457729, 134414404, 131138, 201457729, 131137, 131137, 133187, 131142, 65, 131137, 1,
  201457733, 3279942, 1278345283, 275012321345, 201457729, 201457729, 201460801, 131137, 278233546817, 3355639878,
  2352087109, 2231366, 204603459, 1374523949121, 1275199553, 1275199553, 1275202625, 1179713, 1377745174593,
  2281898054, 3425828933, 1182790, 3425828931, 2474035576897, 2348941377, 2348941377, 2348944449, 2228289,
  2477256802369, 1208156230, 204603461, 134214, 2352087107, 3573547204673, 3422683201, 3422683201, 3422686273,
  3276865, 3576768430145, 134414406, 1278345285, 201458753, 275080413249, 276086063171, 202506305, 1305804537923,
  204606529, 1276248131, 201458753, 1275200577, 1374592041025, 1375597690947, 1276248129, 206292910147, 1278348353,
  202506307, 1275200577, 1275199555, 1209205826, 201457731, 135464002, 2283997251, 2348941381, 203556929, 201457733,
  201459777, 2351038533, 2228289, 2336730841157, 275081461825, 277159804994, 203554881, 201459777, 133186, 2348943425,
  203554885, 131137, 137707585605, 2474104717377, 2476183060546, 2351038529, 2348943425, 2230338, 132162, 1180738,
  275079364673, 134414401, 131141, 211244007292993, 275079364673, 201457733, 1179714, 131138, 65, 131141, 1,
  201457729, 201457729, 131137, 202506305, 132161, 131138, 65, 131137, 1, 201457729, 131137, 201458753, 1180738,
  1179713, 1275200577, 132162, 1, 201457729, 134414401, 201457733, 201459777, 275079364673, 275012321346, 201457729,
  131138, 134414401, 131138, 201460801, 202509377, 134209, 275012321347, 201457729, 201457731, 134414401, 201458753,
  131138, 275012321345, 276086063169, 134414401, 275079364673, 201457729, 131137, 202506305, 201457733, 131137,
  202506305, 201457731, 132161, 131142, 65, 1, 134283266, 134283266, 134283266, 1, 1, 65537, 1, 206292713474,
  206292713474, 206292713474, 206292713474, 206292713474, 134283266, 134283266, 65538, 1, 134283265, 134283265,
  134283265, 1, 134283272, 134283272, 134283272, 1, 1, 65540, 1, 206292713480, 206292713480, 206292713480,
  206292713480, 206292713480, 134283272, 134283272, 65544, 1, 134283268, 134283268, 134283268, 1, 134283269,
  206292713477, 134283269, 134283270, 134283271, 134283272, 134283269, 134283271, 134283270, 134283272, 134283269,
  134283270, 134283271, 134283272, 1, 2, 1, 134283265, 65537, 65539, 1, 206292713477, 281681269424133, 206292713477,
  206292713477, 206292713477, 206292713478, 206292713478, 206292713478, 134283269, 206292713477, 206292713477,
  206292713477, 206292713477, 206292713477, 206292713477, 134283269, 206292713478, 206225670150, 206292713478,
  206292713478, 206292713478, 206292713478, 134283270, 206292713477, 134283269, 65541, 206292713478, 134283270, 65542,
  1, 206292713477, 134283269, 134283269, 134283265, 134283265, 134283265, 134283269, 1, 134283266, 65538, 65540, 1,
  65537, 1, 206292713478, 134283270, 134283270, 134283266, 134283266, 134283266, 134283270, 1, 134283265, 1,
  206292713479, 281681269424135, 206292713479, 206292713479, 206292713480, 206292713480, 206292713479, 206292713480,
  134283271, 206292713479, 206292713479, 206292713479, 206292713479, 206292713480, 206225670152, 206292713480,
  206292713480, 206292713479, 206292713479, 134283271, 206292713480, 206292713480, 134283272, 206292713480, 134283272,
  65544, 206292713479, 134283271, 65543, 1, 206292713479, 134283271, 134283271, 134283267, 134283267, 134283267,
  134283271, 1, 206292713477, 281681269424133, 281681269424133, 360569651459063813, 281681269424133, 281681269424133,
  281681269424135, 281681269424135, 281681202380806, 281681269424134, 281681202380808, 281681269424136, 206292713477,
  208373153798, 206292713477, 206292713477, 206292713478, 206292713478, 281681202380806, 281681269424134,
  281681202380806, 206292713478, 281681202380808, 281681269424136, 281681202380808, 206292713480, 206292713477,
  209446895622, 206292713477, 206292713479, 206292713477, 206292713479, 206292713477, 206292713479, 281681269424133,
  206292713477, 281681269424133, 206292713477, 281681269424135, 206292713479, 281681269424135, 206292713479,
  281681269424134, 206292713478, 281681269424134, 206292713478, 281681269424136, 206292713480, 281681269424136,
  206292713480, 207299411974, 206292713477, 281681269424135, 281681269424135, 281681269424135, 206292713479, 67239942,
  281681269424133, 281681269424133, 281681269424133, 206292713477, 134283269, 65541, 1, 281681269424133, 206292713477,
  206292713477, 206292713479, 134283269, 206292713477, 206292713477, 206292713477, 206292713477, 206292713479,
  206292713479, 206292713479, 206292713479, 1, 206292713480, 134283272, 134283272, 134283268, 134283268, 134283268,
  134283272, 1, 134283267, 1, 281681269424134, 206292713478, 206292713478, 206292713480, 134283270, 206292713478,
  206292713478, 206292713478, 206292713478, 206292713480, 206292713480, 206292713480, 206292713480, 1, 206292713473,
  134283265, 1, 1, 1, 1, 1, 134283266, 134283266, 134283266, 1, 65537, 1, 65537, 1, 134283265, 134283265, 65537, 1,
  134283265, 134283265, 65537, 1, 134283265, 65537, 1, 206292713473, 134283265, 134283265, 134283265, 1, 65537, 1,
  134283265, 1, 134283265, 206292713473, 206292713473, 206292713473, 206292713473, 206292713473, 65537, 134283265,
  134283265, 1, 206292713473, 281681269424129, 281681269424129, 206292713473, 206292713473, 206292713473,
  206292713473, 206292713473, 206292713473, 206292713473, 206292713473, 206292713473, 206292713473, 206292713473,
  281681269424129, 281681269424129, 281681269424129, 281681269424129, 281681269424129, 134283265, 206292713473,
  206292713473, 65537, 1, 134283265, 134283265, 134283265, 1, 206292713473, 206292713473, 206292713473, 206292713473,
  206292713473, 134283265]

def gamps_CCSD : List Nat := [
  1, 1, 1, 1, 1, 1, 1, 1, 1, 1, 1, 1, 65, 65, 65537, 67239937, 65537, 65537, 65, 65537, 65, 65537, 65, 65, 65539,
  65537, 134283266, 67585, 67585, 69, 65537, 201457731, 134283271, 65537, 131141, 68719673477, 131137, 134217793,
  131140, 3138, 65666, 67239941, 134283266, 67239937, 137506258945, 67239937, 67239939, 67239941, 134283266, 65537,
  65538, 65538, 135331841, 207366455297, 135331841, 134284289, 135331841, 137640345602, 137640345601, 131140,
  136380417, 136380417, 65, 206225670148, 65539, 67585, 65, 2113, 65666, 2113, 65666, 1, 65539, 134283265, 134283265,
  134283265, 134283265, 134283265, 206292713473, 134283265, 134283265, 134283265, 206292713473, 134283265, 65537,
  134283265, 134283265, 65537, 134283265, 134283265, 65537, 134283265, 65537, 134283265, 206292713473, 134283265,
  67239939, 134283265, 206292713473, 65537, 65537, 66561, 66561, 206292713473, 206292713473, 206292713473, 1093,
  65671, 1179713, 206158495875, 1275199553, 68988108931, 2113, 65666, 65, 66, 65537, 134283266, 2115, 65668, 65,
  131140, 65538, 134283265, 67239941, 67239937, 137640345601]

def dev_denx_CC2 : List ITerm := [
  ⟨1, 8, [(chars! "v.oooo", [0, 1, 2, 8]), (chars! "t2", [0, 1, 3, 4]), (chars! "l2", [3, 4, 2, 8])]⟩,
  ⟨-1, 1, [(chars! "v.ooov", [0, 1, 2, 3]), (chars! "t1", [0, 4]), (chars! "t2", [1, 8, 3, 5]), (chars! "l2", [4, 5, 2, 8])]⟩,
  ⟨1, 2, [(chars! "v.ooov", [0, 1, 2, 3]), (chars! "t1", [0, 3]), (chars! "t2", [1, 8, 4, 5]), (chars! "l2", [4, 5, 2, 8])]⟩,
  ⟨1, 4, [(chars! "v.ooov", [0, 1, 2, 3]), (chars! "t1", [8, 3]), (chars! "t2", [0, 1, 4, 5]), (chars! "l2", [4, 5, 2, 8])]⟩,
  ⟨-1, 1, [(chars! "v.ovov", [0, 3, 1, 4]), (chars! "t2", [0, 2, 4, 5]), (chars! "l2", [3, 5, 1, 2])]⟩,
  ⟨1, 2, [(chars! "v.oovv", [0, 1, 3, 4]), (chars! "t2", [0, 2, 3, 5]), (chars! "t2", [1, 8, 4, 11]), (chars! "l2", [5, 11, 2, 8])]⟩,
  ⟨-1, 4, [(chars! "v.oovv", [0, 1, 3, 4]), (chars! "t2", [0, 1, 3, 5]), (chars! "t2", [2, 8, 4, 11]), (chars! "l2", [5, 11, 2, 8])]⟩,
  ⟨-1, 4, [(chars! "v.oovv", [0, 1, 3, 4]), (chars! "t2", [0, 2, 3, 4]), (chars! "t2", [1, 8, 5, 11]), (chars! "l2", [5, 11, 2, 8])]⟩,
  ⟨-1, 1, [(chars! "v.oovv", [0, 1, 3, 4]), (chars! "t1", [0, 5]), (chars! "t1", [2, 3]), (chars! "t2", [1, 8, 4, 11]), (chars! "l2", [5, 11, 2, 8])]⟩,
  ⟨-1, 2, [(chars! "v.oovv", [0, 1, 3, 4]), (chars! "t1", [0, 3]), (chars! "t1", [1, 5]), (chars! "t2", [2, 8, 4, 11]), (chars! "l2", [5, 11, 2, 8])]⟩,
  ⟨-1, 2, [(chars! "v.oovv", [0, 1, 3, 4]), (chars! "t1", [0, 3]), (chars! "t1", [2, 4]), (chars! "t2", [1, 8, 5, 11]), (chars! "l2", [5, 11, 2, 8])]⟩,
  ⟨1, 16, [(chars! "v.oovv", [0, 1, 3, 4]), (chars! "t2", [0, 1, 5, 11]), (chars! "t2", [2, 8, 3, 4]), (chars! "l2", [5, 11, 2, 8])]⟩,
  ⟨1, 8, [(chars! "v.oovv", [0, 1, 3, 4]), (chars! "t1", [0, 5]), (chars! "t1", [1, 11]), (chars! "t2", [2, 8, 3, 4]), (chars! "l2", [5, 11, 2, 8])]⟩,
  ⟨1, 8, [(chars! "v.oovv", [0, 1, 3, 4]), (chars! "t1", [2, 3]), (chars! "t1", [8, 4]), (chars! "t2", [0, 1, 5, 11]), (chars! "l2", [5, 11, 2, 8])]⟩,
  ⟨1, 4, [(chars! "v.ovvv", [0, 3, 4, 5]), (chars! "t1", [0, 11]), (chars! "t2", [1, 2, 4, 5]), (chars! "l2", [3, 11, 1, 2])]⟩,
  ⟨-1, 1, [(chars! "v.ovvv", [0, 3, 4, 5]), (chars! "t1", [1, 4]), (chars! "t2", [0, 2, 5, 11]), (chars! "l2", [3, 11, 1, 2])]⟩,
  ⟨1, 2, [(chars! "v.ovvv", [0, 3, 4, 5]), (chars! "t1", [0, 4]), (chars! "t2", [1, 2, 5, 11]), (chars! "l2", [3, 11, 1, 2])]⟩,
  ⟨1, 8, [(chars! "v.vvvv", [3, 4, 5, 11]), (chars! "t2", [0, 1, 3, 4]), (chars! "l2", [5, 11, 0, 1])]⟩]

def denx_CC2 : List Nat := [
  1, 1, 1, 1, 65, 65537, 65537, 134283265, 1, 1, 1, 1, 1, 1, 1, 1, 1, 1, 1, 1, 65537, 65537, 134283267, 65, 65537,
  134217795, 65, 65537, 201457735, 131137, 131138, 65, 65543, 206292713475, 65537, 65, 65, 65, 134217793, 131143,
  135331841, 137640345602, 206225670148, 65, 65, 1, 65539, 65537, 2113, 65666, 67239939, 65538, 206292713473,
  134283265, 134283265, 134283265, 134283265, 134283265, 206292713473, 67585, 67585, 65538, 65538, 66561, 66561, 66,
  134217793, 281475178168385, 65537, 66, 65537, 134283266, 67587, 67239940, 65537, 134283268, 66, 131137, 134217797,
  134217793, 206158561345, 1, 1, 1, 1, 65537, 65, 65537, 65, 65, 65, 137363521, 67239937, 67108993, 65537, 65537, 1,
  1, 1, 1, 65537, 65537, 65, 65, 65537, 134283265, 65537, 68288513, 134217793, 65, 65, 65, 67239937, 134283265,
  134283265, 137363521, 67587, 135266369, 137506258945, 67108993, 70385665, 134217793, 134283265, 65537, 65, 69337089,
  208306044993, 67108993, 134283265, 69208193, 140861505601, 67108993, 137506062529, 67108993, 134217793, 67587,
  135266369, 65537, 67108993, 66561, 66561, 65538, 134284289, 208373153793, 134283265, 134283265, 67108993, 67108993,
  134283265, 134283265, 65538, 134284289, 208373153793, 67108993, 67108993, 134283265, 134283265, 65, 65537,
  134283265, 134283265, 134283265, 65, 65537, 134283265, 67108993, 67108993, 65, 65537, 134283265, 134283265,
  134283265, 65, 65537, 134283265, 67108993, 67108993, 65, 65, 134283265, 134283265, 134283265, 134283266, 136315969,
  206292713473, 134283265, 206292713473, 206292713473, 134283265, 206292648001, 206292713473, 134283265, 206292648001,
  137506062529, 137506062529, 137506062529, 137506062529, 206292648001, 206292713473, 206292648001, 206292713473,
  134284289, 134284289, 67239939, 138714021953, 206292713473, 281681135272001, 67585, 65537, 65, 67585, 65537, 65,
  65539, 67108993, 137506062529, 137506062529, 137506062529, 134283265, 206292713473, 206292713473, 206292713473,
  65537, 65537, 67108993, 134217793, 134283265, 134283265, 67108993, 134283265, 69208193, 140861505601, 65539,
  67108993, 137506062529, 67108993, 137506062529, 65537, 65537, 67108993, 134217793, 206292713473, 206292713473,
  206292713473, 206292713473, 134283265, 134283265, 67108993, 134283265, 69208193, 140861505601, 67587, 136380417,
  65537, 65537, 134283265, 67108993, 134283265, 134283265, 134283265, 67108993, 67108993, 134283265, 65537, 134283265,
  65537, 66561, 134283265, 134283265, 134283266, 134283265, 134283265, 134283265, 134283266, 134283265, 65537,
  134283266, 206292713474, 134283265, 206292713473, 65538, 65537, 134283265, 134283265, 206292713474, 206292713474,
  206292713473, 206292713473, 134283265, 134283265, 134283265, 134283265, 134283265, 206292713473, 65537, 65537,
  65537, 65537, 134283265, 206292713473, 206292713473, 206292713473, 134283265, 206292713473, 206292713473,
  206292713473, 65537, 65537, 134283265, 134283265, 134283265, 134283265, 134283265, 134283265, 134283265,
  206292713473, 65537, 65537, 65538, 65537, 65537, 134283265, 134283265, 134283265, 1, 65537, 65537, 134283265,
  134283265, 134283265, 134283265, 134283265, 134283265, 134283265, 134283265, 206292713473, 134283265, 206292713473,
  206292713473, 134283265, 206292713473, 206292713473, 134283265, 206292713473, 206292713473, 134283265, 206292713473,
  206292713473, 206292713473, 206292713473, 206292713473, 206292713473, 206292713473, 206292713473, 206292713473,
  134283265, 134283265, 134283265, 206292713473, 206292713473, 281681269424129, 65537, 65537, 134283265, 134283265,
  134283265, 65537, 65537, 134283265, 134283266, 134283266, 1, 65537, 65537, 134283265, 134283265, 134283265, 65537,
  134283265, 206292713473, 134283265, 134283265, 134283265, 134283265, 134283265, 134283265, 65537, 65537, 134283265,
  206292713473, 134283265, 134283265, 134283265, 134283265, 134283265, 134283265, 65537, 65537, 134283265, 65537,
  65537, 134283265, 1, 65, 131138, 131142, 132165, 202506305, 133187, 134414404, 134209, 204603457, 131138, 134414401,
  134414406, 203554881, 137640542276, 1, 201457733, 65, 131138, 1305804537923, 206292910147, 202506305, 1276248129,
  3355639878, 2281898054, 1208156230, 134414406, 203554881, 2336730841157, 2351038529, 137707585605, 132162, 1180738,
  2228289, 131137, 133186, 2230338, 1179714, 201457733, 211244007292993, 1, 1, 134283265, 134283265, 1, 134283265,
  206292713473, 65537, 206292713473, 206292713473, 1, 65538, 1, 134283266, 134283266, 1, 1, 134283268, 134283268, 1,
  134283268, 206292713476, 65540, 206292713476, 206292713476, 1, 65544, 1, 134283272, 134283272, 1, 134283265,
  206292713473, 1, 2, 134283268, 134283266, 134283267, 134283265, 134283268, 134283266, 134283267, 134283265, 1,
  134283265, 134283267, 206292713475, 134283265, 206292713473, 65539, 65537, 206292713473, 206225670147, 206292713475,
  206292713475, 206292713473, 206292713473, 206292713473, 206292713475, 206292713473, 206292713475, 206292713473,
  281681269424129, 1, 134283269, 65542, 65541, 1, 134283265, 134283265, 206292713473, 134283269, 134283269, 1,
  134283266, 134283268, 206292713476, 206292713476, 206292713476, 134283266, 206292713474, 206292713474, 206292713474,
  65540, 65538, 206292713474, 206225670148, 206292713474, 206292713476, 206292713474, 206292713476, 206292713474,
  281681269424130, 1, 65537, 134283266, 134283265, 206292713473, 206292713473, 206292713474, 206292713474,
  206292713473, 206292713474, 206292713473, 208373153795, 281681269424129, 206292713473, 281681269424129,
  281681269424130, 206292713474, 281681269424130, 281681269424131, 206292713475, 281681202380803, 281681269424132,
  206292713476, 281681202380804, 281681269424129, 281681269424129, 281681269424130, 281681269424130, 281681202380803,
  281681269424131, 281681202380804, 281681269424132, 206292713473, 206292713475, 206292713473, 281681269424129,
  281681269424129, 360569651459063809, 1, 134283266, 134283266, 206292713474, 134283270, 134283270, 1, 134283265,
  206292713473, 281681269424129, 206292713473, 206292713474, 206292713473, 206292713473, 206292713474, 206292713474,
  1, 134283271, 65544, 65543, 1, 134283267, 134283267, 206292713475, 134283271, 134283271, 1, 65541, 1, 134283269, 1,
  134283268, 134283268, 206292713476, 134283272, 134283272, 1, 134283267, 206292713475, 281681269424131, 206292713475,
  206292713475, 206292713476, 206292713476, 206292713475, 206292713476, 1, 134283270, 1, 134283269, 206292713477, 1,
  1, 1, 1, 1, 1, 1, 134283265, 1, 1, 1, 1, 206292713473, 1, 1, 1, 1, 206292713473, 1, 1, 1, 1, 206292713473, 1, 1, 1,
  134283265, 1, 1, 1, 1, 206292713473, 1, 1, 1, 1, 206292713473, 1, 1, 1, 1, 206292713473, 1, 1, 1, 1, 1,
  281681269424129, 1, 1, 1, 1, 1, 281681269424129, 1, 1, 1, 1, 1, 281681269424129, 1, 1, 1, 1, 206292713473, 1, 1, 1,
  1, 1, 281681269424129, 1, 1, 1, 1, 1, 281681269424129, 1, 1, 1, 1, 206292713473, 1, 1, 1, 1, 206292713473, 1, 1, 1,
  1, 206292713473, 1, 1, 1, 134283265]

end Ebcc.Hints
