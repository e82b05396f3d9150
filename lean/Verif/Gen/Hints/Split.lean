/-!
Hints for claims of `tools/splits.py`.
-/

set_option maxRecDepth 100000

namespace Ebcc.Hints

def split_energy_MP2_G : List Nat := [
  1, 1, 65]

def split_energy_MP2_U : List Nat := [
  1, 1, 1, 1, 1, 1, 66561, 65, 65537, 65537, 66561, 65537, 66561, 67589, 68613, 65537, 66561]

def split_energy_MP3_G : List Nat := [
  1, 1, 1, 1, 1, 65, 65538, 65, 69337089, 65537, 70385666, 67239937]

def split_energy_MP3_U : List Nat := [
  1, 1, 1, 1, 1, 1, 1, 1, 1, 1, 1, 1, 1, 1, 1, 1, 1, 1, 65, 1, 1089, 65541, 65540, 65537, 65537, 1, 69, 67585, 66565,
  65, 65537, 68613, 68612, 65541, 65540, 1, 65, 65541, 65540, 67239937, 65665, 65665, 65537, 137432069, 70386689,
  70387717, 70385665, 67239937, 70385665, 70385665, 70388737, 70388737, 65, 134217793, 137363521, 137363521, 65,
  134217793, 137363521, 137363521, 134283265, 136380417, 134283265, 135332865, 136380417, 137430017, 134285317,
  135334917, 136382469, 137432069, 134283265, 136380417, 65537, 66561, 65537, 66561, 67589, 68613, 65537, 66561,
  67239938, 134283267, 67239938, 134283267, 67239938, 134283267, 134283267, 67239942, 67239942, 134283270, 67239938,
  134283267, 67239938, 134283267, 134283265, 135331841, 134283265, 136382465, 135331841, 137431041, 134284293,
  136383493, 135332869, 137432069, 134283265, 135331841]

def split_energy_LCCD_G : List Nat := [
  1, 1, 65]

def split_energy_LCCD_U : List Nat := [
  1, 1, 1, 1, 1, 1, 65, 66561, 1089, 65537, 66561, 65537, 66561, 67589, 68613, 65537, 66561]

def split_energy_LCCSD_G : List Nat := [
  1, 1, 1, 1, 65, 65537]

def split_energy_LCCSD_U : List Nat := [
  1, 1, 1, 1, 1, 1, 1, 1, 1, 1, 65, 66561, 66561, 65537, 65537, 65537, 65537, 65537, 66561, 65537, 66561, 67589,
  68613, 65537, 66561]

def split_energy_CCD_G : List Nat := [
  1, 1, 65537]

def split_energy_CCD_U : List Nat := [
  1, 1, 1, 1, 1, 1, 66561, 65, 66561, 65537, 66561, 65537, 66561, 67589, 68613, 65537, 66561]

def split_energy_CC2_G : List Nat := [
  1, 1, 1, 1, 65, 65537, 65537, 134283265]

def split_energy_CC2_U : List Nat := [
  1, 1, 1, 1, 1, 1, 1, 1, 1, 1, 1, 1, 1, 1, 65543, 65541, 69, 65543, 65541, 66561, 66561, 65, 65537, 134283269,
  67239939, 67239937, 65, 134217795, 134217793, 65537, 65537, 65537, 66561, 65537, 66561, 67589, 68613, 65537, 66561,
  134283265, 134283265, 134283265, 67239941, 134283265, 134283265]

def split_energy_CCSD_G : List Nat := [
  1, 1, 1, 1, 65, 65537, 65, 67108993]

def split_energy_CCSD_U : List Nat := [
  1, 1, 1, 1, 1, 1, 1, 1, 1, 1, 1, 1, 1, 1, 65541, 65543, 65541, 69, 71, 65537, 66561, 65537, 65537, 134283269,
  67239939, 67239937, 65537, 67239937, 67239939, 65537, 65537, 65537, 66561, 65537, 66561, 67589, 68613, 65537, 66561,
  134283265, 134283265, 134283265, 67239941, 134283265, 134283265]

def split_energy_QCISD_G : List Nat := [
  1, 1, 65]

def split_energy_QCISD_U : List Nat := [
  1, 1, 1, 1, 1, 1, 65537, 65537, 65537, 65537, 66561, 65537, 66561, 67589, 68613, 65537, 66561]

def split_amps_LCCD_G : List Nat := [
  1, 1, 1, 1, 1, 1, 1, 65, 65, 65, 67585, 67585, 65, 66561, 66561, 66, 65537, 65537, 65537]

def split_amps_LCCD_U : List Nat := [
  1, 1, 1, 1, 1, 1, 1, 1, 1, 1, 1, 1, 1, 1, 1, 1, 1, 1, 1, 1, 65, 66561, 66561, 65, 65, 67585, 67585, 1, 65, 65537, 1,
  65541, 65540, 65537, 65537, 1, 65537, 65537, 65537, 65537, 65537, 65537, 65537, 65537, 65, 67585, 1089, 65537,
  65537, 1, 3141, 3140, 66565, 69, 1, 69, 68, 2113, 65, 65537, 66561, 66561, 65, 65, 67585, 67585, 3141, 65537, 1, 69,
  68, 65537, 65537, 1, 65537, 65537, 65537, 65537, 65537, 65537, 65, 65537, 67585, 1, 1, 65537, 66561, 65537, 65537,
  65537, 65537, 65539, 65539, 65539, 65539, 65539, 65539, 65539, 65539, 65539, 65539, 65539, 65539, 65537, 67585, 1,
  65537, 66561, 65537, 65537, 65537, 65537, 65539, 65539, 65539, 65539, 65539, 65539, 65539, 65539, 65537, 67585, 1,
  66561, 65537, 65537, 65537, 65537, 65537, 65539, 65539, 65539, 65539, 65539, 65539, 65539, 65539, 66561, 66561,
  66561, 65537, 65537, 65537, 1, 65537, 65537, 65537, 65537, 65537, 65537, 65537, 66565, 67585, 65537, 1, 65537,
  66561, 65537, 65537, 65537, 65537, 65539, 65539, 65539, 65539, 65539, 65539, 65539, 65539, 65537, 67589, 65537,
  67585, 67585, 65537, 5, 65537, 65537, 65537, 65537, 65537, 65537, 65537, 67585, 67585, 65537, 1, 66561, 65537,
  65537, 65537, 65537, 65537, 65539, 65539, 65539, 65539, 65539, 65539, 65539, 65539, 66561, 68613, 66561, 67585,
  67585, 65537, 5, 65537, 65537, 65537, 65537, 65537, 65537, 65537, 68613, 65537, 67585, 1, 1, 65537, 66561, 65537,
  65537, 65537, 65537, 65539, 65539, 65539, 65539, 65539, 65539, 65539, 65539, 65539, 65539, 65539, 65539]

def split_amps_LCCSD_G : List Nat := [
  1, 1, 1, 1, 1, 1, 1, 1, 1, 1, 1, 1, 65, 65, 65538, 65, 65537, 67, 65, 65537, 66, 65537, 65537, 65537, 65538, 65539,
  65, 67585, 65537, 65537, 65, 66561, 65537, 65538, 65537, 65537]

def split_amps_LCCSD_U : List Nat := [
  1, 1, 1, 1, 1, 1, 1, 1, 1, 1, 1, 1, 1, 1, 1, 1, 1, 1, 1, 1, 1, 1, 1, 1, 1, 1, 1, 1, 1, 1, 1, 1, 65537, 65, 67585,
  65537, 65537, 65, 1, 65541, 65540, 66565, 65537, 65537, 68609, 69, 65, 68613, 65, 65, 1, 69, 68, 69, 3141, 65,
  65537, 66561, 65537, 65537, 66561, 2113, 65537, 67585, 67585, 65541, 1, 65537, 65537, 69, 68, 65537, 65537, 65541,
  1, 65537, 65537, 65537, 65537, 65537, 65537, 65537, 65537, 65537, 65537, 1089, 65537, 2113, 65537, 66561, 65, 65537,
  65, 1, 3141, 3140, 65537, 65541, 65, 66565, 69, 65541, 65540, 2113, 65, 65, 66561, 65, 65537, 66561, 67585, 65537,
  67585, 67585, 65541, 68613, 65537, 1, 65541, 65540, 65537, 65537, 65541, 65537, 1, 65537, 65537, 65537, 65537,
  65537, 65537, 65537, 65537, 65537, 1089, 65537, 65539, 67587, 65539, 67587, 65539, 65539, 65539, 65537, 65537, 1,
  65537, 65537, 66561, 65537, 66561, 65537, 67587, 65539, 65539, 67587, 65539, 65539, 65539, 65537, 65537, 1, 65537,
  66561, 65537, 65537, 66561, 65537, 67585, 1, 1, 65537, 66561, 65539, 65539, 65539, 65539, 65539, 65539, 65539,
  65539, 65539, 65539, 65539, 65539, 65537, 65537, 65537, 65537, 65537, 65537, 65537, 65539, 65539, 65537, 65539,
  65539, 65537, 67585, 1, 65537, 66561, 65539, 65539, 65539, 65539, 65539, 65539, 65539, 65539, 65537, 65537, 65537,
  65537, 65537, 65539, 65537, 65539, 65537, 67585, 1, 66561, 65537, 65539, 65539, 65539, 65539, 65539, 65539, 65539,
  65539, 65537, 65537, 65537, 65537, 65537, 65539, 65537, 65539, 66561, 66561, 66561, 65537, 65537, 65537, 65537, 1,
  65537, 65537, 65537, 65537, 65537, 65537, 65537, 65537, 65537, 65537, 66565, 67585, 65537, 1, 65537, 66561, 65539,
  65539, 65539, 65539, 65539, 65539, 65539, 65539, 65537, 65537, 65537, 65537, 65537, 65539, 65537, 65539, 65537,
  65537, 67589, 67585, 67585, 65541, 65537, 5, 65537, 65537, 65541, 65537, 65537, 65537, 65537, 65537, 65537, 65537,
  67585, 67585, 65537, 1, 66561, 65537, 65539, 65539, 65539, 65539, 65539, 65539, 65539, 65539, 65537, 65537, 65537,
  65537, 65537, 65539, 65537, 65539, 66561, 66561, 68613, 67585, 67585, 65541, 65537, 5, 65537, 65537, 65541, 65537,
  65537, 65537, 65537, 65537, 65537, 65537, 68613, 65537, 67585, 1, 1, 65537, 66561, 65539, 65539, 65539, 65539,
  65539, 65539, 65539, 65539, 65539, 65539, 65539, 65539, 65537, 65537, 65537, 65537, 65537, 65537, 65537, 65539,
  65539, 65537, 65539, 65539]

def split_amps_CCD_G : List Nat := [
  1, 1, 1, 1, 1, 1, 1, 69, 65, 65537, 134217797, 65538, 134283268, 67239937, 65, 65537, 65537, 65, 66561, 66561,
  134283265, 134283265, 134284289, 68288515, 67585, 67585, 65537, 65537, 65537, 69, 131137]

def split_amps_CCD_U : List Nat := [
  1, 1, 1, 1, 1, 1, 1, 1, 1, 1, 1, 1, 1, 1, 1, 1, 1, 1, 1, 1, 1, 1, 1, 1, 65537, 3141, 69, 71, 69, 71, 1089, 65, 1089,
  68614, 66, 65537, 3141, 3143, 67590, 66, 65541, 65543, 65541, 65, 66561, 3141, 65, 68288517, 67239937, 136382465,
  65, 65, 134217793, 134217795, 65, 134220865, 67585, 137428997, 137428998, 65537, 65537, 65, 5, 2119, 65537, 65543,
  65541, 65, 65, 2230337, 67239939, 67239937, 65537, 67239937, 67239939, 65537, 65, 65537, 134217793, 134284293,
  134283265, 66561, 68613, 66561, 69337095, 67239938, 65537, 65537, 65, 136314951, 134217794, 65537, 65537, 65537, 1,
  1, 65537, 65537, 134283265, 67239937, 65537, 134283265, 134283265, 67239941, 67239941, 67239937, 65537, 67239941,
  67239941, 65537, 66561, 135331841, 134284289, 134284289, 68288513, 68289541, 65537, 2113, 136314951, 134217794,
  3137, 66562, 67240962, 67240962, 65537, 1, 1092, 134218822, 3140, 3276865, 3276870, 3276869, 131141, 131142, 131141,
  65537, 65537, 2113, 65, 131137, 135266373, 134217793, 136381445, 136380417, 66561, 68613, 66561, 67239938, 67239938,
  65537, 65537, 65, 134217794, 134217794, 65537, 65537, 65537, 1, 1, 65537, 65537, 134283265, 67239937, 65537,
  134283265, 134283265, 67239941, 67239941, 67239937, 65537, 67239941, 67239941, 67239941, 67239941, 65537, 65537,
  135331841, 68289541, 67240961, 135331841, 135331841, 65537, 66561, 1, 1, 65537, 65537, 134283265, 134283265,
  134283265, 134283269, 134283265, 134283265, 134283265, 134283265, 134283265, 134283269, 134283265, 134283265,
  134283265, 136380421, 134283265, 136380421, 134283265, 136380421, 134283265, 136380421, 134283265, 135331841,
  134283265, 135331841, 134283265, 134284289, 134283269, 134284293, 65537, 65537, 65539, 65539, 65539, 65539, 65539,
  65539, 65539, 65539, 65539, 65539, 65539, 65539, 65537, 67585, 134283265, 134284289, 65537, 66561, 1, 65537, 65537,
  134283265, 134283265, 134283265, 134283269, 134283265, 134283265, 134283269, 134283265, 136380421, 134283265,
  136380421, 134283265, 136380421, 134283265, 136380421, 134283269, 135331845, 134283265, 135331841, 134283265,
  134284289, 134283269, 134284293, 65537, 65537, 65539, 65539, 65539, 65539, 65539, 65539, 65539, 65539, 65537, 67585,
  134283265, 134284289, 136380421, 136381445, 66561, 65537, 1, 65537, 65537, 134283269, 134283265, 134283265,
  134283265, 134283269, 134283265, 134283265, 134283265, 136380421, 134283265, 136380421, 134283265, 136380421,
  134283265, 136380421, 134283269, 135331845, 134283265, 135331841, 134283265, 134284289, 134283269, 134284293, 65537,
  65537, 65539, 65539, 65539, 65539, 65539, 65539, 65539, 65539, 65537, 67585, 134283265, 134284289, 136380421,
  136381445, 66561, 66561, 66561, 134283265, 134283265, 65537, 65537, 65537, 134283265, 134283265, 65537, 1, 65537,
  134283265, 65537, 134283265, 134283265, 134283265, 134283265, 134283265, 134283265, 65537, 65537, 65537, 65537,
  66565, 135331841, 134284289, 134284289, 135331841, 135331841, 65537, 66561, 1, 65537, 65537, 134283265, 134283265,
  134283265, 134283265, 134283269, 134283265, 134283265, 134283265, 136380421, 134283265, 136380421, 134283265,
  136380421, 134283265, 136380421, 134283265, 135331841, 134283265, 135331841, 134283265, 134284289, 134283265,
  134284289, 65537, 65537, 65539, 65539, 65539, 65539, 65539, 65539, 65539, 65539, 67585, 65537, 134283265, 134284289,
  136380421, 136381445, 65537, 67589, 65537, 134285313, 134285313, 65537, 65537, 67585, 134285313, 134285313, 67585,
  5, 65537, 67239937, 65537, 67239937, 67239941, 67239941, 67239937, 67239941, 67239941, 65537, 65537, 65537, 65537,
  67585, 134285313, 67239937, 67240965, 68288517, 67239937, 66561, 65537, 1, 65537, 65537, 134283265, 134283265,
  134283265, 134283269, 134283265, 134283265, 134283265, 134283265, 136380421, 134283265, 136380421, 134283265,
  136380421, 134283265, 136380421, 134283265, 135331841, 134283265, 135331841, 134283265, 134284289, 134283265,
  134284289, 65537, 65537, 65539, 65539, 65539, 65539, 65539, 65539, 65539, 65539, 67585, 65537, 134283265, 134284289,
  136380421, 136381445, 66561, 68613, 66561, 134285313, 134285313, 65537, 65537, 67585, 134285313, 134285313, 67585,
  5, 65537, 67239937, 65537, 67239937, 67239941, 67239941, 67239937, 67239941, 67239941, 65537, 65537, 65537, 65537,
  68613, 135333889, 68288513, 68289541, 68289541, 67240961, 65537, 66561, 1, 1, 65537, 65537, 134283265, 134283265,
  134283265, 134283269, 134283265, 134283265, 134283265, 134283265, 134283265, 134283269, 134283265, 134283265,
  134283265, 136380421, 134283265, 136380421, 134283265, 136380421, 134283265, 136380421, 134283269, 135331845,
  134283265, 135331841, 134283265, 134284289, 134283265, 134284289, 65537, 65537, 65539, 65539, 65539, 65539, 65539,
  65539, 65539, 65539, 65539, 65539, 65539, 65539, 65537, 67585, 134283265, 134284289]

def split_amps_CC2_G : List Nat := [
  1, 1, 1, 1, 1, 1, 1, 1, 1, 1, 1, 1, 65537, 65537, 134283267, 65, 65537, 134217795, 65, 65537, 201457735, 131137,
  131138, 65, 65543, 206292713475, 65537, 65, 65, 65, 134217793, 131143, 135331841, 137640345602, 206225670148, 65,
  65, 1, 65539, 65537, 2113, 65666, 67239939, 65538, 206292713473, 134283265, 134283265, 134283265, 134283265,
  134283265, 206292713473, 67585, 67585, 65538, 65538, 66561, 66561, 66, 134217793, 281475178168385, 65537, 66, 65537,
  134283266, 67587, 67239940, 65537, 134283268, 66, 131137, 134217797, 134217793, 206158561345]

def split_amps_CC2_U : List Nat := [
  1, 1, 1, 1, 1, 1, 1, 1, 1, 1, 1, 1, 1, 1, 1, 1, 1, 1, 1, 1, 1, 1, 1, 1, 1, 1, 1, 1, 1, 1, 1, 1, 1, 65537, 65537, 1,
  1, 1, 1, 134283269, 65537, 65537, 65537, 131141, 65, 65537, 65543, 65541, 69, 65543, 65541, 65537, 65, 134414405,
  65537, 65, 67239937, 66, 134283266, 65, 65541, 134217793, 65537, 65537, 65, 66, 65, 206225670149, 134283266, 65,
  65537, 65537, 67239937, 1, 1, 134217793, 211381244723201, 65537, 65, 131137, 67239937, 201457733, 134283265,
  206158561346, 131137, 134217793, 201457733, 134217793, 134283266, 5, 65537, 69, 131141, 65537, 65537, 65, 65537,
  134283265, 211381244723201, 65537, 206158561346, 134283265, 134283265, 67239937, 67239937, 206292713477, 69, 71, 70,
  65, 68613, 1089, 65537, 67239937, 67239939, 67239937, 65537, 66, 65537, 65538, 65537, 65538, 65541, 66561, 65, 65,
  134217793, 134217795, 134217793, 66561, 134283265, 66561, 65538, 134283266, 65538, 134283266, 134283265, 135331841,
  206292713473, 206292713473, 134283265, 135331841, 134283265, 206292713473, 1, 134283265, 65537, 1, 134283265, 65537,
  65541, 65541, 65537, 134283269, 206292713473, 206225670145, 281681269424129, 65537, 134283265, 206225670145, 65,
  67239937, 67585, 1090, 1179714, 66, 131138, 137640345602, 134283265, 2228289, 134283266, 137640345602, 1, 134283265,
  65537, 65, 67, 134217794, 206292713477, 281681269424133, 131141, 131137, 201457733, 66561, 134283265, 66561, 65538,
  134283266, 66, 131138, 134283265, 135331841, 206292713473, 206292713473, 134283265, 135331841, 134283265,
  206292713473, 65537, 1, 134283265, 1, 134283265, 65537, 65541, 65541, 65537, 281681269424129, 206292713473,
  206225670145, 134283269, 65537, 134283265, 206225670145, 65, 131141, 135331841, 3141, 65669, 3141, 65669, 68288517,
  67239937, 134283265, 206292713477, 206292713477, 137640345601, 65538, 67239943, 65537, 65, 68613, 65537, 134283269,
  134283270, 134283269, 3137, 3276865, 3276870, 3276869, 65538, 67239938, 134283269, 67239938, 131137, 134283269,
  65537, 65, 67108993, 68613, 67239941, 134217793, 134217793, 131137, 206158561345, 201457733, 206158561345, 66,
  134217799, 65, 65537, 65537, 65, 131141, 131142, 131141, 65537, 134283265, 134283270, 134283269, 65538, 67239938,
  67239938, 134283269, 1, 65537, 65539, 65539, 65539, 65539, 67587, 65539, 67587, 134283265, 136380421, 134283265,
  136380421, 65537, 66561, 65537, 66561, 134283265, 134283265, 134283265, 65537, 65537, 134283265, 134283265,
  134283265, 134283269, 134283265, 134283265, 65537, 134283265, 134283267, 67239939, 134283267, 134283265, 135331841,
  134283265, 135331841, 206292713473, 137640345605, 206292713473, 1, 65537, 65539, 65539, 65539, 67587, 65539, 65539,
  67587, 134283265, 136380421, 134283265, 136380421, 66561, 65537, 65537, 66561, 134283265, 134283265, 134283265,
  65537, 65537, 134283265, 134283265, 134283265, 134283269, 134283265, 134283265, 65537, 134283265, 134283267,
  134283267, 67239939, 134283269, 135331845, 134283265, 135331841, 137640345605, 206292713473, 137640345605,
  134283265, 134283265, 1, 1, 65537, 65537, 206292713473, 206292713473, 206292713473, 206292713473, 134283265,
  134283265, 134283267, 134283267, 134283267, 134283267, 134283267, 134283267, 134283267, 134283267, 134283265,
  206292713475, 137640345603, 134283265, 206292713475, 137640345603, 65537, 65537, 65539, 65539, 65539, 65539, 65537,
  65537, 65537, 65537, 134283265, 67239937, 281681269424129, 211381244723205, 134283265, 1, 65537, 206292713473,
  206292713473, 134283265, 134283265, 134283267, 134283267, 134283267, 134283267, 134283265, 137640345603, 134283265,
  206292713475, 65537, 65537, 65539, 65539, 65537, 65537, 65537, 134283265, 281681269424129, 134283265, 1, 65537,
  206292713473, 206292713473, 134283265, 134283265, 134283267, 134283267, 134283267, 134283267, 134283265,
  206292713475, 134283265, 137640345603, 65537, 65537, 65539, 65539, 65537, 65537, 65537, 67239937, 211381244723205,
  66561, 134283265, 66561, 65537, 134283265, 65537, 134283265, 206292713473, 135331841, 135331841, 134283265,
  206292713473, 1, 134283265, 65537, 65537, 65537, 65537, 134283269, 206292713473, 281681269424129, 134283265,
  134283265, 206292713473, 134283265, 1, 65537, 206292713473, 206292713473, 134283265, 134283265, 134283267,
  134283267, 134283267, 134283267, 134283265, 206292713475, 134283265, 137640345603, 65537, 65537, 65539, 65539,
  65537, 65537, 65537, 67239937, 281681269424129, 65537, 67239941, 65537, 67585, 136380417, 67585, 136380417,
  206292713473, 134283265, 134283265, 134283265, 206292713473, 5, 134283265, 65537, 65541, 65541, 65537, 67239937,
  206225670145, 281681202380801, 134283265, 134283265, 206225670145, 134283265, 1, 65537, 206292713473, 206292713473,
  134283265, 134283265, 134283267, 134283267, 134283267, 134283267, 134283265, 137640345603, 134283265, 206292713475,
  65537, 65537, 65539, 65539, 65537, 65537, 65537, 134283265, 211381244723205, 66561, 67239941, 66561, 67585,
  136380417, 67585, 136380417, 206292713473, 135331841, 135331841, 134283265, 206292713473, 5, 134283265, 65537,
  65541, 65541, 65537, 67239941, 206225670145, 281681202380801, 134283265, 134283265, 206225670145, 134283265,
  134283265, 1, 1, 65537, 65537, 206292713473, 206292713473, 206292713473, 206292713473, 134283265, 134283265,
  134283267, 134283267, 134283267, 134283267, 134283267, 134283267, 134283267, 134283267, 134283265, 206292713475,
  137640345603, 134283265, 206292713475, 137640345603, 65537, 65537, 65539, 65539, 65539, 65539, 65537, 65537, 65537,
  65537, 134283265, 67239937, 281681269424129, 211381244723205]

def split_amps_CCSD_G : List Nat := [
  1, 1, 1, 1, 1, 1, 1, 1, 1, 1, 1, 1, 65, 65, 65537, 67239937, 65537, 65537, 65, 65537, 65, 65537, 65, 65, 65539,
  65537, 134283266, 67585, 67585, 69, 65537, 201457731, 134283271, 65537, 131141, 68719673477, 131137, 134217793,
  131140, 3138, 65666, 67239941, 134283266, 67239937, 137506258945, 67239937, 67239939, 67239941, 134283266, 65537,
  65538, 65538, 135331841, 207366455297, 135331841, 134284289, 135331841, 137640345602, 137640345601, 131140,
  136380417, 136380417, 65, 206225670148, 65539, 67585, 65, 2113, 65666, 2113, 65666, 1, 65539, 134283265, 134283265,
  134283265, 134283265, 134283265, 206292713473, 134283265, 134283265, 134283265, 206292713473, 134283265, 65537,
  134283265, 134283265, 65537, 134283265, 134283265, 65537, 134283265, 65537, 134283265, 206292713473, 134283265,
  67239939, 134283265, 206292713473, 65537, 65537, 66561, 66561, 206292713473, 206292713473, 206292713473, 1093,
  65671, 1179713, 206158495875, 1275199553, 68988108931, 2113, 65666, 65, 66, 65537, 134283266, 2115, 65668, 65,
  131140, 65538, 134283265, 67239941, 67239937, 137640345601]

def split_amps_CCSD_U : List Nat := [
  1, 1, 1, 1, 1, 1, 1, 1, 1, 1, 1, 1, 1, 1, 1, 1, 1, 1, 1, 1, 1, 1, 1, 1, 1, 1, 1, 1, 1, 1, 1, 1, 1, 1, 1, 1, 1, 1, 1,
  1, 65541, 65543, 65541, 65537, 65537, 69, 71, 65537, 65, 65543, 65541, 1, 65541, 1, 1, 65, 1, 65541, 1, 1, 131137,
  65537, 1, 65, 65537, 131141, 67, 65, 68613, 65, 134217793, 134217795, 134217793, 1089, 131143, 131141, 65, 67,
  65541, 66, 69, 1, 134283269, 65537, 131141, 69, 65539, 65537, 131137, 131139, 1, 1, 66, 71, 65537, 65, 66, 69,
  65537, 65537, 65537, 67239937, 67239937, 67239939, 1, 65, 65537, 66, 69, 67239937, 65539, 68613, 131138, 66,
  134217794, 131141, 134217794, 65541, 134414405, 65538, 68614, 65537, 65538, 65541, 65539, 65537, 65541, 1, 65538,
  65541, 65538, 65, 65, 1, 65541, 65544, 65538, 66, 65537, 66, 134217794, 134217794, 131141, 65541, 5, 65543, 69, 65,
  65541, 1, 65537, 1, 1, 65537, 67239937, 67239937, 67239939, 65541, 65539, 134414405, 1, 65541, 131138, 65537, 65539,
  65, 1, 1, 65541, 65543, 1, 65541, 65538, 1, 1, 1, 1089, 134217793, 65538, 65541, 65538, 65537, 65538, 65541, 1, 1,
  65, 68613, 68615, 137428997, 209513938945, 65, 67243009, 65538, 65541, 65538, 68613, 201457733, 2113, 65544,
  67239938, 131137, 65537, 134217793, 65537, 206158561346, 65538, 65540, 65541, 65537, 134283265, 134283265,
  134283265, 281475178168385, 2228289, 67239937, 2281898053, 137428997, 209513938945, 66, 131140, 131141, 135266373,
  134217793, 131137, 201457733, 201457733, 201457729, 131141, 131141, 201457731, 201457733, 65539, 65539, 131143,
  131141, 65538, 65537, 65537, 65540, 65541, 65538, 67239938, 134283269, 67239938, 69, 71, 68, 69, 65538, 134283266,
  134283269, 134283266, 69, 71, 68, 69, 131137, 2230337, 65, 65, 68613, 68615, 65538, 65542, 65540, 65537, 134283265,
  134283265, 134283265, 5, 65537, 69, 65537, 65538, 65537, 65537, 65538, 65541, 65537, 134283265, 134283265,
  134283265, 65, 134217793, 65544, 134283271, 65537, 69, 71, 72, 65537, 65537, 67239937, 5, 71, 67591, 65537, 65543,
  65541, 65537, 65537, 65537, 134283265, 134283265, 134283265, 65537, 65539, 65537, 131143, 131141, 65537, 65543,
  65541, 71, 72, 65537, 65537, 65537, 134283265, 134283265, 134283265, 65539, 65537, 131137, 131139, 67239937, 65539,
  131143, 65, 131139, 65539, 65537, 2113, 65540, 134283271, 134217793, 211381244723201, 65539, 65539, 134283265,
  134283267, 137640345602, 134283269, 206292713477, 134283269, 134283269, 206292713477, 206292713475, 67239937, 65543,
  65541, 2228289, 65538, 65542, 65540, 66, 134217794, 134217794, 131141, 65538, 134283269, 134283268, 66561, 65541,
  65543, 65538, 65543, 2281898053, 2230337, 65541, 65543, 134283269, 206292713477, 206292713477, 66, 131138, 131141,
  131138, 67239937, 65, 65, 65537, 131137, 134217793, 134217793, 131137, 201457729, 201457729, 201457733, 65538,
  65541, 65538, 65543, 65541, 131137, 65537, 65537, 65, 134217793, 134217795, 134217793, 65537, 65538, 65, 65541, 66,
  131138, 131141, 131138, 68609, 67239937, 68613, 66561, 135331841, 135331841, 135331841, 69337095, 67239938, 66561,
  135331841, 135331841, 135331841, 67239937, 68609, 65537, 65537, 65538, 134283266, 69337095, 67239938, 134283271,
  134283266, 134283266, 206225670151, 206225670151, 206292713474, 65537, 65537, 66, 131138, 131143, 131138, 131138,
  134414407, 134414407, 201457730, 134283265, 135331841, 206292713473, 206292713473, 134284289, 134284289, 135331841,
  207366455297, 207366455297, 207366455297, 134283265, 134283265, 135331841, 206292713473, 68288513, 68289541,
  135331841, 207366455297, 207366455297, 207366455297, 134283265, 65537, 1, 134283269, 134283269, 206292713475,
  206292713477, 134283265, 206292713473, 134283265, 1, 134283265, 134283265, 206292713473, 206292713473, 134283265,
  206292713473, 65537, 67239937, 65537, 134283269, 134283270, 134283267, 134283265, 137428997, 137428997, 137428998,
  65541, 134283265, 67239937, 65, 134217793, 134217795, 131139, 131137, 137428997, 67243009, 67243011, 134283265,
  65537, 134283265, 134283265, 134283265, 65541, 207366455297, 65537, 281681269424129, 206292713473, 206225670145,
  134283269, 135331841, 65537, 65540, 134283268, 207299411976, 65537, 65537, 134283265, 134283265, 134283265,
  206292713473, 206292713473, 134283265, 206292713473, 135266373, 206225670145, 65538, 134283266, 134283269,
  134283266, 65, 67108993, 65, 69337095, 67239938, 2114, 2228290, 2228293, 2228290, 68609, 66562, 135331842, 67240962,
  67240962, 135331842, 135331847, 135331842, 207366455298, 207366455298, 207299411975, 65538, 134283266, 134283266,
  134283271, 134283266, 206225670151, 206225670151, 206292713474, 135266373, 134217793, 131137, 201457733, 201457733,
  201457729, 134283266, 206292713474, 131137, 136381445, 136380417, 136380417, 208440197121, 208440197121,
  208440197125, 136380422, 137640345606, 1, 1179718, 1275199558, 1092, 1179716, 134218822, 67588, 136380420,
  201457733, 67, 134217794, 206292713473, 281681269424129, 68612, 137428993, 137428998, 137428997, 137428997,
  137428996, 134283265, 134283269, 134283270, 134283269, 65537, 134217793, 65540, 134283269, 134283268, 134283265, 68,
  131140, 201457732, 137428997, 137428998, 209513938947, 209513938949, 131141, 201457733, 134283269, 134283270,
  206292713477, 206292713475, 134283269, 206292713473, 136380422, 208440197123, 135266373, 131137, 201457733, 66,
  131138, 131141, 131138, 3137, 65665, 68613, 66561, 135331841, 135331841, 135331841, 67239938, 67239938, 66561,
  135331841, 135331841, 135331841, 67239937, 68609, 65537, 65537, 66, 131138, 134217794, 134217794, 131138, 131143,
  131138, 201457730, 201457730, 134414407, 65537, 65537, 65538, 134283266, 134283266, 134283271, 134283266,
  206292713474, 206292713474, 206225670151, 135331841, 134283265, 206292713473, 206292713473, 134284289, 134284289,
  135331841, 207366455297, 207366455297, 207366455297, 134283265, 135331841, 134283265, 206292713473, 68289541,
  68288513, 135331841, 207366455297, 207366455297, 207366455297, 65537, 1, 134283265, 134283269, 134283269,
  206292713477, 206292713475, 134283265, 206292713473, 1, 134283265, 134283265, 134283265, 206292713473, 206292713473,
  134283265, 206292713473, 65537, 67239937, 65537, 134283269, 134283270, 134283265, 134283267, 134283265, 134283270,
  134283269, 65541, 134283265, 67239937, 65537, 67239937, 67239939, 134283265, 134283267, 131137, 134217795,
  134217793, 134283265, 65537, 134283265, 134283265, 65541, 134283265, 65537, 207366455297, 206292713473,
  206225670145, 281681269424129, 134283269, 65537, 135331841, 68, 1179719, 201457732, 65537, 65537, 134283265,
  134283265, 134283265, 206292713473, 206292713473, 134283265, 206292713473, 68288517, 206225670145, 135331841, 65537,
  131141, 3141, 65669, 68613, 67239941, 135266373, 134217793, 131137, 201457733, 201457733, 206158561345, 66,
  134217799, 65, 68613, 65537, 68609, 137428993, 137428997, 137428998, 65, 131141, 131142, 131141, 66, 134217794,
  131141, 134217794, 131137, 134283269, 65, 65, 67108993, 67589, 67239941, 67239937, 67239937, 134283265,
  137640345601, 137640345601, 206292713477, 66, 134217794, 65, 65, 65, 65537, 134283269, 134283270, 134283269, 65,
  131137, 131141, 131142, 66, 134217794, 131141, 134217794, 1, 65537, 65539, 65539, 65539, 65539, 67587, 65539, 67587,
  134283265, 136380421, 134283265, 136380421, 65537, 66561, 65537, 66561, 134283265, 134283265, 134283265, 65537,
  65537, 134283265, 134283265, 134283265, 134283269, 134283265, 134283265, 65537, 134283265, 134283267, 67239939,
  134283267, 134283265, 135331841, 134283265, 135331841, 206292713473, 137640345605, 206292713473, 1, 65537, 65539,
  65539, 65539, 67587, 65539, 65539, 67587, 134283265, 136380421, 134283265, 136380421, 66561, 65537, 65537, 66561,
  134283265, 134283265, 134283265, 65537, 65537, 134283265, 134283265, 134283265, 134283269, 134283265, 134283265,
  65537, 134283265, 134283267, 134283267, 67239939, 134283269, 135331845, 134283265, 135331841, 137640345605,
  206292713473, 137640345605, 1, 1, 134283265, 134283265, 134283265, 134283265, 134283265, 134283265, 134283265,
  134283265, 134283265, 134283265, 134283265, 134283265, 134283265, 134283265, 134283265, 134283265, 134283265,
  134283265, 134283269, 134283265, 134283265, 206292713473, 206292713473, 206292713473, 134283265, 134283265,
  134283265, 134283265, 134283265, 134283265, 134283269, 134283265, 134283265, 206292713473, 206292713473,
  206292713473, 134283265, 136380421, 134283265, 136380421, 134283265, 134283265, 135331841, 134283265, 136380421,
  134283265, 136380421, 134283265, 134283265, 135331841, 206292713473, 206292713473, 206292713473, 206292713473,
  134283267, 134283267, 134283267, 65539, 65539, 65539, 134283267, 134283267, 134283267, 134283267, 134283267, 65539,
  65539, 65539, 134283267, 134283267, 134283267, 134283267, 134283267, 65539, 65539, 65539, 134283267, 134283267,
  134283267, 134283267, 134283267, 65539, 65539, 65539, 134283267, 134283267, 65539, 65539, 134283267, 134283267,
  134283267, 206292713473, 206292713477, 206292713477, 65539, 65539, 134283267, 134283267, 134283267, 206292713473,
  206292713477, 206292713477, 134283265, 134283265, 135331841, 134283265, 135331841, 134283267, 136380419,
  206292713475, 137640345603, 134283265, 134283265, 134284289, 134283269, 134284293, 134283267, 136380419,
  206292713475, 137640345603, 65537, 65537, 65537, 65537, 65537, 65537, 65537, 65537, 206292713473, 206292713477,
  206292713473, 206292713473, 206292713477, 206292713473, 206292713473, 206292713477, 206292713473, 206292713473,
  206292713477, 206292713473, 65537, 67585, 134283265, 67239937, 134283265, 134284289, 206292713473, 207366455297,
  206292713473, 208440197125, 281681269424129, 211381244723205, 65537, 66561, 134283265, 134283265, 1, 134283265,
  134283265, 134283265, 134283265, 134283265, 134283265, 134283265, 134283265, 134283265, 134283265, 134283265,
  134283265, 134283265, 134283265, 134283269, 134283265, 134283265, 206292713473, 206292713473, 206292713473,
  134283265, 134283265, 134283265, 134283269, 206225670149, 206292713473, 206292713473, 134283265, 136380421,
  134283265, 136380421, 134283265, 135331841, 134283265, 134283265, 136380421, 134283265, 136380421, 134283265,
  134283265, 135331841, 206292713473, 206292713473, 134283267, 65539, 65539, 65539, 134283267, 134283267, 134283267,
  134283267, 65539, 134283267, 134283267, 134283267, 134283267, 65539, 134283267, 134283267, 65539, 65539, 65539,
  134283267, 65539, 134283267, 134283267, 134283267, 206292713473, 206292713477, 206292713477, 65539, 134283267,
  134283267, 134283267, 206292713473, 206292713473, 206292713477, 134283265, 134283269, 135331845, 134283265,
  135331841, 136380419, 134283267, 137640345603, 134283265, 134283265, 134284289, 134283269, 134284293, 134283267,
  136380419, 206292713475, 65537, 65537, 65537, 65537, 65537, 65537, 206292713473, 206292713477, 206292713473,
  206292713477, 206292713473, 206292713477, 206292713473, 206292713477, 65537, 67585, 134283265, 134283265, 134284289,
  136380421, 136381445, 206292713473, 207366455297, 206292713473, 208440197125, 281681269424129, 65537, 66561,
  134283265, 1, 134283265, 134283265, 134283265, 134283265, 134283265, 134283265, 134283265, 134283265, 134283265,
  134283265, 134283265, 134283269, 206225670149, 206292713473, 206292713473, 134283265, 134283265, 134283265,
  134283265, 134283265, 134283265, 134283269, 134283265, 134283265, 206292713473, 206292713473, 206292713473,
  134283265, 136380421, 134283265, 136380421, 134283265, 134283265, 135331841, 134283265, 136380421, 134283265,
  136380421, 134283265, 135331841, 134283265, 206292713473, 206292713473, 134283267, 134283267, 134283267, 65539,
  134283267, 134283267, 65539, 65539, 65539, 134283267, 134283267, 65539, 65539, 65539, 134283267, 134283267,
  134283267, 134283267, 65539, 134283267, 65539, 134283267, 134283267, 134283267, 206292713473, 206292713477,
  206292713477, 65539, 134283267, 134283267, 134283267, 206292713473, 206292713473, 206292713477, 134283265,
  134283269, 135331845, 134283265, 135331841, 136380419, 134283267, 206292713475, 134283265, 134283265, 134284289,
  134283269, 134284293, 134283267, 136380419, 137640345603, 65537, 65537, 65537, 65537, 65537, 65537, 206292713477,
  206292713473, 206292713477, 206292713473, 206292713477, 206292713473, 206292713477, 206292713473, 65537, 67585,
  67239937, 134283265, 134284289, 136380421, 136381445, 206225670149, 207299411973, 206292713473, 208440197125,
  211381244723205, 66561, 65537, 134283265, 66561, 135331841, 135331841, 135331841, 66561, 134283265, 134283265,
  134283265, 66561, 135331841, 135331841, 135331841, 65537, 65537, 65537, 134283265, 134283265, 134283265, 134283265,
  134283265, 134283265, 206292713473, 206292713473, 206292713473, 65537, 134283265, 134283265, 134283265, 134283265,
  206292713473, 206292713473, 206292713473, 134284289, 134284289, 135331841, 207366455297, 207366455297, 207366455297,
  135331841, 206292713473, 134283265, 135331841, 135331841, 135331841, 207366455297, 207366455297, 207366455297,
  135331841, 206292713473, 1, 134283265, 65537, 134283265, 206292713473, 65537, 65537, 134283265, 134283265, 65537,
  65537, 134283265, 206292713473, 65537, 134283269, 207366455297, 281681269424129, 65537, 134283265, 134283265,
  134283265, 134283265, 134283265, 134283265, 134283265, 134283265, 134283265, 65537, 65537, 134283265, 65537,
  134283265, 134283265, 135331841, 66565, 134283265, 206292713473, 134283265, 134283265, 206292713473, 206292713473,
  134283265, 206292713473, 134283265, 134283265, 206292713473, 206292713473, 134283265, 206292713473, 134283265,
  134283265, 206292713473, 134283265, 134283265, 206292713473, 1, 134283265, 134283265, 134283265, 134283265,
  134283265, 134283265, 134283265, 134283265, 134283265, 134283265, 134283265, 134283265, 206292713473, 206292713473,
  206292713473, 134283265, 134283265, 134283265, 134283265, 134283265, 134283265, 134283269, 134283265, 134283265,
  206225670149, 206292713473, 206292713473, 134283265, 136380421, 134283265, 136380421, 134283265, 135331841,
  134283265, 134283265, 136380421, 134283265, 136380421, 134283265, 134283265, 135331841, 206292713473, 206292713473,
  134283267, 134283267, 134283267, 65539, 134283267, 134283267, 65539, 65539, 65539, 134283267, 134283267, 65539,
  65539, 65539, 134283267, 134283267, 134283267, 134283267, 65539, 134283267, 65539, 134283267, 134283267, 134283267,
  206292713473, 206292713473, 206292713477, 65539, 134283267, 134283267, 134283267, 206292713473, 206292713477,
  206292713477, 134283265, 134283265, 135331841, 134283265, 135331841, 134283267, 136380419, 206292713475, 134283265,
  134283265, 134284289, 134283265, 134284289, 136380419, 134283267, 137640345603, 65537, 65537, 65537, 65537, 65537,
  65537, 206292713473, 206292713477, 206292713473, 206292713477, 206292713473, 206292713477, 206292713473,
  206292713477, 67585, 65537, 67239937, 134283265, 134284289, 136380421, 136381445, 206292713473, 207366455297,
  206292713473, 208440197125, 281681269424129, 65537, 66561, 134283265, 65537, 134283265, 134283265, 134283265, 67589,
  67239941, 134285313, 134285313, 65537, 134283265, 134283265, 134283265, 65537, 65537, 67585, 136380417, 134285313,
  134285313, 136380417, 136380417, 136380417, 208440197121, 208440197121, 208440197121, 67585, 136380417, 136380417,
  136380417, 136380417, 208440197121, 208440197121, 208440197121, 67239937, 67240965, 134283265, 206292713473,
  206292713473, 206292713473, 134283265, 206292713473, 134283265, 68288517, 67239937, 134283265, 206292713473,
  206292713473, 206292713473, 134283265, 206292713473, 5, 134283265, 65537, 134283265, 206292713473, 65541, 65537,
  134283265, 67239937, 65541, 65537, 134283265, 206225670145, 65537, 67239937, 206225670145, 281681202380801, 65537,
  67239937, 67239941, 67239941, 134283265, 134283265, 134283265, 67239937, 67239941, 67239941, 65537, 65537,
  134283265, 65537, 134283265, 134283265, 134285313, 67585, 136380417, 208440197121, 134283265, 134283265,
  206292713473, 206292713473, 134283265, 206292713473, 134283265, 134283265, 206292713473, 206292713473, 134283265,
  206292713473, 134283265, 134283265, 206292713473, 136380417, 134283265, 206225670145, 1, 134283265, 134283265,
  134283265, 134283265, 134283265, 134283265, 134283265, 134283265, 134283265, 134283265, 134283265, 134283265,
  134283265, 134283265, 134283269, 134283265, 134283265, 206225670149, 206292713473, 206292713473, 134283265,
  134283265, 134283265, 134283265, 206292713473, 206292713473, 206292713473, 134283265, 136380421, 134283265,
  136380421, 134283265, 134283265, 135331841, 134283265, 136380421, 134283265, 136380421, 134283265, 135331841,
  134283265, 206292713473, 206292713473, 134283267, 65539, 65539, 65539, 134283267, 134283267, 134283267, 134283267,
  65539, 134283267, 134283267, 134283267, 134283267, 65539, 134283267, 134283267, 65539, 65539, 65539, 134283267,
  65539, 134283267, 134283267, 134283267, 206292713473, 206292713473, 206292713477, 65539, 134283267, 134283267,
  134283267, 206292713473, 206292713477, 206292713477, 134283265, 134283265, 135331841, 134283265, 135331841,
  134283267, 136380419, 137640345603, 134283265, 134283265, 134284289, 134283265, 134284289, 136380419, 134283267,
  206292713475, 65537, 65537, 65537, 65537, 65537, 65537, 206292713477, 206292713473, 206292713477, 206292713473,
  206292713477, 206292713473, 206292713477, 206292713473, 67585, 65537, 134283265, 134283265, 134284289, 136380421,
  136381445, 206225670149, 207299411973, 206292713473, 208440197125, 211381244723205, 66561, 65537, 134283265, 66561,
  135331841, 135331841, 135331841, 68613, 67239941, 134285313, 134285313, 66561, 135331841, 135331841, 135331841,
  65537, 65537, 67585, 136380417, 134285313, 134285313, 136380417, 136380417, 136380417, 208440197121, 208440197121,
  208440197121, 67585, 136380417, 136380417, 136380417, 136380417, 208440197121, 208440197121, 208440197121, 68288513,
  68289541, 135331841, 207366455297, 207366455297, 207366455297, 135331841, 206292713473, 134283265, 68289541,
  67240961, 135331841, 207366455297, 207366455297, 207366455297, 135331841, 206292713473, 5, 134283265, 65537,
  134283265, 206292713473, 65541, 65537, 134283265, 67239937, 65541, 65537, 134283265, 206225670145, 65537, 67239941,
  207299411969, 281681202380801, 65537, 67239937, 67239941, 67239941, 134283265, 134283265, 134283265, 67239937,
  67239941, 67239941, 65537, 65537, 134283265, 65537, 134283265, 134283265, 135333889, 68613, 136380417, 208440197121,
  134283265, 134283265, 206292713473, 206292713473, 134283265, 206292713473, 134283265, 134283265, 206292713473,
  206292713473, 134283265, 206292713473, 134283265, 134283265, 206292713473, 136380417, 134283265, 206225670145, 1, 1,
  134283265, 134283265, 134283265, 134283265, 134283265, 134283265, 134283265, 134283265, 134283265, 134283265,
  134283265, 134283265, 134283265, 134283265, 134283265, 134283265, 134283265, 134283265, 134283269, 134283265,
  134283265, 206225670149, 206292713473, 206292713473, 134283265, 134283265, 134283265, 134283265, 134283265,
  134283265, 134283269, 134283265, 134283265, 206225670149, 206292713473, 206292713473, 134283265, 136380421,
  134283265, 136380421, 134283265, 134283265, 135331841, 134283265, 136380421, 134283265, 136380421, 134283265,
  134283265, 135331841, 206292713473, 206292713473, 206292713473, 206292713473, 134283267, 134283267, 134283267,
  65539, 65539, 65539, 134283267, 134283267, 134283267, 134283267, 134283267, 65539, 65539, 65539, 134283267,
  134283267, 134283267, 134283267, 134283267, 65539, 65539, 65539, 134283267, 134283267, 134283267, 134283267,
  134283267, 65539, 65539, 65539, 134283267, 134283267, 65539, 65539, 134283267, 134283267, 134283267, 206292713473,
  206292713473, 206292713477, 65539, 65539, 134283267, 134283267, 134283267, 206292713473, 206292713473, 206292713477,
  134283265, 134283269, 135331845, 134283265, 135331841, 134283267, 136380419, 206292713475, 137640345603, 134283265,
  134283265, 134284289, 134283265, 134284289, 134283267, 136380419, 206292713475, 137640345603, 65537, 65537, 65537,
  65537, 65537, 65537, 65537, 65537, 206292713477, 206292713473, 206292713477, 206292713477, 206292713473,
  206292713477, 206292713477, 206292713473, 206292713477, 206292713477, 206292713473, 206292713477, 65537, 67585,
  134283265, 67239937, 134283265, 134284289, 206292713473, 207366455297, 206292713473, 208440197125, 281681269424129,
  211381244723205, 65537, 66561, 134283265, 134283265]

def split_amps_QCISD_G : List Nat := [
  1, 1, 1, 1, 1, 1, 1, 1, 1, 1, 1, 1, 65541, 65, 65537, 65538, 65, 65537, 67239941, 65538, 65537, 67239937, 65, 65539,
  67585, 67239937, 65537, 1, 65537, 65, 65537, 65537, 65537, 65537, 134283265, 134283265, 134284289, 68288515, 65537,
  65537, 66561, 66561, 65538, 65538, 69, 131137, 66, 65537, 65539, 65537, 134283266, 65, 131140, 65538, 67239937]

def split_amps_QCISD_U : List Nat := [
  1, 1, 1, 1, 1, 1, 1, 1, 1, 1, 1, 1, 1, 1, 1, 1, 1, 1, 1, 1, 1, 1, 1, 1, 1, 1, 1, 1, 1, 1, 1, 1, 1, 1, 1, 1, 65543,
  65541, 65537, 68613, 71, 69, 65, 65, 1, 1, 1, 1, 3143, 3141, 2118, 68614, 65537, 1089, 66, 66, 69, 69, 71, 1, 1, 65,
  65537, 71, 69, 65537, 65541, 65543, 65541, 134220867, 134220865, 65537, 67243009, 68613, 65, 134217795, 134217793,
  65, 65537, 65537, 68288517, 67239937, 2113, 65, 136382465, 5, 67591, 65537, 65537, 65, 65537, 71, 69, 65537, 65537,
  134217793, 65, 65, 65537, 67239939, 67239937, 134217793, 134217793, 65, 65, 67239937, 67239939, 67585, 136382465,
  65, 65537, 65537, 65, 65537, 1, 1, 65537, 67239937, 65537, 67239941, 67239941, 67239941, 67239941, 65541, 134283265,
  67239937, 65537, 134283265, 134283265, 134283265, 134283265, 65537, 65541, 65537, 66561, 65537, 135331841, 68613,
  66561, 66561, 69337095, 67239938, 65537, 65537, 65537, 69337095, 67239938, 65, 65537, 65537, 65537, 65537,
  134284289, 134284289, 68288513, 68289541, 1, 65537, 65, 1092, 134218822, 67585, 65, 69, 65, 2113, 136314951,
  134217794, 3137, 66562, 67240962, 67240962, 65, 3140, 3276865, 3276870, 3276869, 134283269, 134283269, 134283270,
  65, 65537, 65537, 131137, 68288517, 67239937, 2229317, 2228289, 65537, 1, 1, 65537, 67239937, 65537, 67239941,
  67239941, 67239941, 67239941, 65541, 134283265, 67239937, 65537, 134283265, 134283265, 67239941, 67239941, 65537,
  65541, 65537, 135331841, 65537, 1089, 68613, 66561, 66561, 134217794, 134217794, 65537, 65537, 65537, 67239938,
  67239938, 65537, 65, 65537, 65537, 65537, 134284289, 134284289, 68289541, 68288513, 67585, 65537, 3141, 65, 68609,
  137428993, 137428998, 137428997, 65537, 134283269, 134283269, 134283270, 135331841, 65537, 66565, 68613, 65,
  2228293, 68288517, 67239937, 65537, 65, 65, 65537, 65537, 134283265, 134283270, 134283269, 65537, 134283269,
  134283269, 134283270, 65, 65537, 131137, 134283269, 66565, 65, 134217793, 134217793, 65539, 65539, 65539, 65537,
  65537, 66561, 65537, 66561, 65539, 67587, 65539, 67587, 134283265, 136380421, 134283265, 136380421, 65537, 65537,
  134283265, 134283265, 134283265, 134283269, 134283265, 134283265, 65537, 134283265, 135331841, 134283265, 135331841,
  65539, 65539, 65539, 65537, 66561, 65537, 65537, 66561, 67587, 65539, 65539, 67587, 134283265, 136380421, 134283265,
  136380421, 65537, 65537, 134283265, 134283265, 134283265, 134283269, 134283265, 134283265, 65537, 134283269,
  135331845, 134283265, 135331841, 65537, 66561, 1, 1, 65539, 65539, 65539, 65539, 65539, 65539, 65539, 65539, 65539,
  65539, 65539, 65539, 134283265, 134283265, 134283265, 134283269, 134283265, 134283265, 134283265, 134283265,
  134283265, 134283269, 134283265, 134283265, 134283265, 136380421, 134283265, 136380421, 134283265, 136380421,
  134283265, 136380421, 134283265, 135331841, 134283265, 135331841, 134283265, 134284289, 134283269, 134284293, 65537,
  65537, 65537, 65537, 65537, 65537, 65537, 65537, 65539, 65539, 65539, 65539, 65537, 67585, 134283265, 134284289,
  65537, 66561, 1, 65539, 65539, 65539, 65539, 65539, 65539, 65539, 65539, 134283265, 134283265, 134283265, 134283269,
  134283265, 134283265, 134283269, 134283265, 136380421, 134283265, 136380421, 134283265, 136380421, 134283265,
  136380421, 134283269, 135331845, 134283265, 135331841, 134283265, 134284289, 134283269, 134284293, 65537, 65537,
  65537, 65537, 65537, 65537, 65539, 65539, 65537, 67585, 134283265, 134284289, 136380421, 136381445, 66561, 65537, 1,
  65539, 65539, 65539, 65539, 65539, 65539, 65539, 65539, 134283269, 134283265, 134283265, 134283265, 134283269,
  134283265, 134283265, 134283265, 136380421, 134283265, 136380421, 134283265, 136380421, 134283265, 136380421,
  134283269, 135331845, 134283265, 135331841, 134283265, 134284289, 134283269, 134284293, 65537, 65537, 65537, 65537,
  65537, 65537, 65539, 65539, 65537, 67585, 134283265, 134284289, 136380421, 136381445, 1, 65537, 65537, 65537,
  134283265, 65537, 65537, 65537, 66561, 66561, 66561, 134283265, 134283265, 65537, 65537, 65537, 134283265,
  134283265, 65537, 65537, 134283265, 134283265, 134283265, 134283265, 134283265, 134283265, 65537, 65537, 65537,
  66565, 135331841, 134284289, 134284289, 135331841, 135331841, 65537, 66561, 1, 65539, 65539, 65539, 65539, 65539,
  65539, 65539, 65539, 134283265, 134283265, 134283265, 134283265, 134283269, 134283265, 134283265, 134283265,
  136380421, 134283265, 136380421, 134283265, 136380421, 134283265, 136380421, 134283265, 135331841, 134283265,
  135331841, 134283265, 134284289, 134283265, 134284289, 65537, 65537, 65537, 65537, 65537, 65537, 65539, 65539,
  67585, 65537, 134283265, 134284289, 136380421, 136381445, 5, 65537, 65541, 65537, 67239937, 65537, 65541, 65537,
  65537, 67589, 65537, 134285313, 134285313, 65537, 65537, 67585, 134285313, 134285313, 67585, 65537, 67239937,
  67239941, 67239941, 67239937, 67239941, 67239941, 65537, 65537, 65537, 67585, 134285313, 67239937, 67240965,
  68288517, 67239937, 66561, 65537, 1, 65539, 65539, 65539, 65539, 65539, 65539, 65539, 65539, 134283265, 134283265,
  134283265, 134283269, 134283265, 134283265, 134283265, 134283265, 136380421, 134283265, 136380421, 134283265,
  136380421, 134283265, 136380421, 134283265, 135331841, 134283265, 135331841, 134283265, 134284289, 134283265,
  134284289, 65537, 65537, 65537, 65537, 65537, 65537, 65539, 65539, 67585, 65537, 134283265, 134284289, 136380421,
  136381445, 5, 65537, 65541, 65537, 67239937, 65537, 65541, 65537, 66561, 68613, 66561, 134285313, 134285313, 65537,
  65537, 67585, 134285313, 134285313, 67585, 65537, 67239937, 67239941, 67239941, 67239937, 67239941, 67239941, 65537,
  65537, 65537, 68613, 135333889, 68288513, 68289541, 68289541, 67240961, 65537, 66561, 1, 1, 65539, 65539, 65539,
  65539, 65539, 65539, 65539, 65539, 65539, 65539, 65539, 65539, 134283265, 134283265, 134283265, 134283269,
  134283265, 134283265, 134283265, 134283265, 134283265, 134283269, 134283265, 134283265, 134283265, 136380421,
  134283265, 136380421, 134283265, 136380421, 134283265, 136380421, 134283269, 135331845, 134283265, 135331841,
  134283265, 134284289, 134283265, 134284289, 65537, 65537, 65537, 65537, 65537, 65537, 65537, 65537, 65539, 65539,
  65539, 65539, 65537, 67585, 134283265, 134284289]

def split_lams_CCD_G : List Nat := [
  1, 1, 1, 1, 1, 1, 1, 1, 65, 69, 65, 65537, 65537, 134283265, 134284289, 1, 133185, 67108993, 71, 134209, 65, 65,
  65537, 65537, 135331841, 134283266, 65537, 5, 134285317, 66561, 66561, 65541, 134283269, 65541, 134283269, 65541,
  134283269, 65541, 134283269, 135331841, 134283270, 135331841, 134283270, 136380417, 134283271, 136380417, 134283271,
  67585, 67585, 65541, 134283265]

def split_lams_CCD_U : List Nat := [
  1, 1, 1, 1, 1, 1, 1, 1, 1, 1, 1, 1, 1, 1, 1, 1, 1, 1, 1, 1, 1, 1, 1, 65537, 1090, 67590, 68614, 3140, 65537, 65537,
  69, 2115, 65537, 65, 3141, 1089, 3141, 65538, 66, 3137, 65537, 65, 65537, 65537, 65, 65537, 65, 65, 65, 1, 65, 1, 1,
  65, 65, 65537, 65537, 1, 1, 67108993, 67108993, 134283265, 134283265, 65538, 134284289, 134284289, 67108995,
  67108995, 65, 68613, 137432065, 137432065, 69206152, 67108995, 67108995, 65, 65541, 65540, 134286337, 134286337, 66,
  133185, 133185, 67108995, 67108995, 65541, 65540, 134286337, 134286337, 1091, 3137, 65, 67108996, 65, 65537, 65540,
  65537, 1, 2119, 65538, 134284289, 134284289, 1, 136380424, 65537, 134286337, 134286337, 69, 68, 134209, 134209,
  134283267, 134283267, 66561, 134283267, 134283267, 134283267, 134283267, 67108993, 67108993, 134283265, 134283265,
  1089, 4, 134283270, 134283270, 8, 134283270, 134283270, 65538, 65541, 134283266, 134283266, 65538, 134283266,
  134283266, 66561, 135331841, 135331841, 65538, 65541, 134283266, 134283266, 65538, 134283266, 134283266, 66561,
  135331841, 135331841, 68613, 136382469, 67585, 136380417, 136380417, 67585, 136380417, 136380417, 2119, 132165,
  134283266, 134283266, 65538, 65541, 134283266, 134283266, 65538, 134283266, 134283266, 65538, 65541, 134283266,
  134283266, 65538, 134283266, 134283266, 134283269, 134283269, 134283271, 134283271, 134283269, 134283269, 134283266,
  134283266, 134283269, 134283269, 134283271, 134283271, 134283269, 134283269, 134283266, 134283266, 134283266,
  134283266, 4, 134283266, 134283266, 66561, 65538, 134285313, 134285313, 68614, 68616, 137432066, 137432066, 66,
  134210, 134210, 2114, 2230337, 2230337, 65537, 134283265, 66562, 135332865, 135332865, 66, 132161, 132161, 65540,
  134283265, 65542, 65544, 134286338, 134286338, 70, 134210, 134210, 2117, 1182789, 134283268, 134283268, 136383493,
  67108996, 67108996, 67108998, 67108998, 67108998, 67108998, 134283270, 134283270, 4, 134283270, 134283270, 8,
  134283270, 134283270, 70, 72, 134210, 134210, 65538, 134283266, 134283266, 66, 133185, 133185, 70, 72, 134210,
  134210, 65538, 134283266, 134283266, 65538, 134285313, 134285313, 68613, 136382469, 67585, 136380417, 136380417,
  67585, 136380417, 136380417, 65540, 134283265, 134283266, 134283266, 65538, 65541, 134283266, 134283266, 65538,
  134283266, 134283266, 65538, 65541, 134283266, 134283266, 65538, 134283266, 134283266, 134283269, 134283269,
  134283271, 134283271, 134283269, 134283269, 134283266, 134283266, 134283269, 134283269, 134283271, 134283271,
  134283269, 134283269, 134283266, 134283266, 134283266, 134283266, 65537, 66561, 1, 1, 134283265, 134285313, 65537,
  65537, 65537, 65539, 65537, 134283267, 134283267, 134283267, 134283267, 134283267, 134283267, 65537, 65539, 65537,
  134283267, 134283267, 134283267, 134283267, 134283267, 134283267, 65537, 65539, 65537, 134283267, 134283267,
  134283267, 134283267, 134283267, 134283267, 65537, 65539, 65537, 134283267, 134283267, 134283267, 134283267,
  134283267, 134283267, 134283265, 134284289, 134283265, 134284289, 134283265, 134283265, 134283265, 134283265,
  135332865, 135332865, 134283265, 134284289, 134283265, 134284289, 134283265, 134283265, 134283265, 134283265,
  135332865, 135332865, 134283267, 134285315, 134283267, 134285315, 134283267, 134283267, 134283267, 134283267,
  136382467, 136382467, 134283267, 134285315, 134283267, 134285315, 134283267, 134283267, 134283267, 134283267,
  136382467, 136382467, 65537, 65537, 65537, 67585, 134283265, 134284289, 65537, 66561, 1, 134283265, 135332865,
  134285313, 135334913, 65537, 65537, 65537, 65537, 65539, 134283267, 134283267, 134283267, 134283267, 134283267,
  134283267, 65539, 134283267, 65539, 134283267, 65537, 65539, 65537, 134283267, 134283267, 134283267, 134283267,
  134283267, 134283267, 134284289, 134283265, 134283265, 134284289, 134283265, 134283265, 135332865, 134283265,
  134284289, 134283265, 134284289, 134283265, 135332865, 134283265, 134285315, 134283267, 134283267, 134285315,
  134283267, 134283267, 136382467, 134283267, 134285315, 134283267, 134285315, 134283267, 136382467, 134283267, 65537,
  65537, 65537, 67585, 134283265, 136382465, 134284289, 136383489, 65537, 66561, 1, 134283265, 135332865, 134285313,
  135334913, 65537, 65537, 65539, 134283267, 65537, 65539, 65537, 134283267, 134283267, 134283267, 134283267,
  134283267, 134283267, 65537, 65537, 65539, 134283267, 134283267, 134283267, 134283267, 134283267, 134283267, 65539,
  134283267, 134283265, 134284289, 134283265, 134284289, 134283265, 135332865, 134283265, 134284289, 134283265,
  134283265, 134284289, 134283265, 134283265, 135332865, 134285315, 134283267, 134283267, 134285315, 134283267,
  134283267, 136382467, 134283267, 134285315, 134283267, 134285315, 134283267, 136382467, 134283267, 65537, 65537,
  67585, 65537, 134284289, 136383489, 134283265, 136382465, 1, 134283265, 134283265, 65537, 65537, 134283265,
  134283265, 65537, 65537, 134283265, 134283265, 65537, 134283265, 134283265, 65537, 134283265, 134283265, 67585,
  136380417, 67585, 136380417, 136380417, 67585, 136380417, 136380417, 67589, 134284293, 65537, 65537, 134283265,
  134283265, 65537, 134283265, 134283265, 65537, 134283265, 134283265, 134283265, 134283265, 134283265, 134283265,
  134283265, 134283265, 134283265, 134283265, 134283265, 134283265, 66561, 65537, 1, 134285313, 135334913, 134283265,
  135332865, 65537, 65537, 65539, 134283267, 65537, 65537, 65539, 134283267, 134283267, 134283267, 134283267,
  134283267, 134283267, 65537, 65539, 65537, 134283267, 134283267, 134283267, 134283267, 134283267, 134283267, 65539,
  134283267, 134284289, 134283265, 134283265, 134284289, 134283265, 134283265, 135332865, 134283265, 134284289,
  134283265, 134284289, 134283265, 135332865, 134283265, 134283267, 134285315, 134283267, 134285315, 134283267,
  136382467, 134283267, 134285315, 134283267, 134283267, 134285315, 134283267, 134283267, 136382467, 65537, 65537,
  65537, 67585, 134283265, 136382465, 134284289, 136383489, 5, 134283265, 134283265, 65537, 66561, 135331841,
  135331841, 65537, 65537, 134283265, 134283265, 65537, 134283265, 134283265, 66561, 135331841, 135331841, 66565,
  134285317, 65537, 134283265, 134283265, 65537, 134283265, 134283265, 66561, 135331841, 65537, 65537, 134283265,
  134283265, 65537, 134283265, 134283265, 65537, 134283265, 134283269, 134283269, 134283265, 134283269, 134283269,
  134283265, 134283265, 134283265, 134283265, 134283265, 134283265, 66561, 65537, 1, 134285313, 135334913, 134283265,
  135332865, 65537, 65537, 65537, 65539, 65537, 134283267, 134283267, 134283267, 134283267, 134283267, 134283267,
  65539, 134283267, 65539, 134283267, 65537, 65537, 65539, 134283267, 134283267, 134283267, 134283267, 134283267,
  134283267, 134283265, 134284289, 134283265, 134284289, 134283265, 135332865, 134283265, 134284289, 134283265,
  134283265, 134284289, 134283265, 134283265, 135332865, 134283267, 134285315, 134283267, 134285315, 134283267,
  136382467, 134283267, 134285315, 134283267, 134283267, 134285315, 134283267, 134283267, 136382467, 65537, 65537,
  67585, 65537, 134284289, 136383489, 134283265, 136382465, 5, 134283265, 134283265, 65537, 66561, 135331841,
  135331841, 65537, 65537, 134283265, 134283265, 65537, 134283265, 134283265, 66561, 135331841, 135331841, 68613,
  136382469, 67585, 136380417, 136380417, 67585, 136380417, 136380417, 68613, 135332869, 65537, 65537, 134283265,
  134283265, 65537, 134283265, 134283265, 65537, 134283265, 134283269, 134283269, 134283265, 134283269, 134283269,
  134283265, 134283265, 134283265, 134283265, 134283265, 134283265, 65537, 66561, 1, 1, 134283265, 134285313, 65537,
  65537, 65537, 65537, 65539, 134283267, 134283267, 134283267, 134283267, 134283267, 134283267, 65537, 65537, 65539,
  134283267, 134283267, 134283267, 134283267, 134283267, 134283267, 65537, 65537, 65539, 134283267, 134283267,
  134283267, 134283267, 134283267, 134283267, 65537, 65537, 65539, 134283267, 134283267, 134283267, 134283267,
  134283267, 134283267, 134284289, 134283265, 134283265, 134284289, 134283265, 134283265, 135332865, 135332865,
  134283265, 134283265, 134284289, 134283265, 134283265, 134284289, 134283265, 134283265, 135332865, 135332865,
  134283265, 134283265, 134285315, 134283267, 134283267, 134285315, 134283267, 134283267, 136382467, 136382467,
  134283267, 134283267, 134285315, 134283267, 134283267, 134285315, 134283267, 134283267, 136382467, 136382467,
  134283267, 134283267, 65537, 65537, 65537, 67585, 134283265, 134284289]

def split_lams_CC2_G : List Nat := [
  1, 1, 1, 1, 1, 1, 1, 1, 1, 1, 1, 1, 1, 1, 65537, 65537, 65537, 65, 65537, 65537, 1, 65539, 65539, 65, 1, 65539,
  65537, 65537, 70385665, 134283265, 131137, 67108993, 67108994, 65543, 134283265, 134283271, 67239937, 67108994, 71,
  131137, 65537, 65537, 206292713479, 65, 1, 65537, 65, 67, 134217795, 67587, 135266369, 135331841, 134283266,
  135331841, 65539, 134283267, 71, 131140, 208373153793, 134414402, 134283265, 65537, 134283265, 66561, 65538, 67585,
  1, 65537, 65542, 134283268, 65, 131138, 65541, 134283266, 65540, 69337091, 134283267, 206225670148, 65537, 65,
  70385665, 67239937, 67108993, 65, 65, 65, 68288513, 69208193, 140861505601, 65541, 65, 65537, 67239937, 65537,
  67108997, 65537, 5, 140660244677, 134283269, 134283269, 65541, 134283269, 134283269, 134283269, 65541, 134283269,
  134283269, 134283269, 65541, 134283269, 134283269, 134283269, 65541, 134283269, 134283265, 134283265, 65541,
  134283269, 134283265, 134283265, 65541, 134283269, 135331841, 134283270, 135331841, 135331841, 134283270, 135331841,
  66, 66, 65538, 66, 65537, 206292713473, 65537, 206292713473, 65537, 65541, 65537, 65541, 206292713473, 206292713473,
  206292713477, 206292713477, 206292713477, 206292713477, 69, 131141, 201457729, 67108998, 2, 134283269, 68920803461,
  70, 134285315, 206292713478, 65537, 134283265, 136383489, 208443342849, 134284289, 206293762049, 134283265,
  206292713473, 134283265, 206292713473, 206225670145, 281612482969601, 65539, 134283265, 67108997, 137506062535,
  137506062533, 211243738595589, 134283269, 134283269, 69, 67108997, 137506062533, 137506062533, 137506062533,
  134283270, 134283270, 66, 131143, 66, 131141, 133185, 131137, 134414402, 134283266, 206292713479, 134283266,
  206292713479]

def split_lams_CC2_U : List Nat := [
  1, 1, 1, 1, 1, 1, 1, 1, 1, 1, 1, 1, 1, 1, 1, 1, 1, 1, 1, 1, 1, 1, 1, 1, 1, 1, 1, 1, 1, 1, 1, 1, 1, 1, 1, 1, 1, 1, 1,
  1, 1, 1, 1, 1, 1, 65537, 1, 1, 1, 1, 69, 65543, 65541, 65537, 65543, 65541, 1, 1, 65543, 65541, 65, 67587, 65537,
  65537, 65537, 65537, 65, 65, 1, 65, 65537, 71, 69, 65537, 65539, 65537, 69, 65541, 65544, 69, 1, 1, 1, 65537, 65540,
  65541, 65, 67, 65537, 1, 65537, 67239937, 66561, 65537, 67108993, 65537, 65, 65, 134217793, 65, 65541, 134217793,
  65, 70385665, 65537, 69, 1, 1, 1, 65539, 65537, 1, 137363521, 65538, 65538, 65541, 65, 1, 1, 66, 69, 65537,
  67239937, 67239939, 67239937, 1, 65537, 68, 69, 1, 65537, 65537, 65, 134217793, 134217795, 134217793, 65537, 1,
  65537, 65538, 1, 65539, 65537, 1, 65, 134217793, 134217795, 134217793, 65537, 65537, 1, 1, 66562, 65, 65, 137363521,
  65540, 67239937, 67108993, 67108993, 68289537, 65537, 1, 68612, 65537, 1089, 67239941, 65538, 65543, 1, 65, 1,
  65541, 135266369, 70388737, 65537, 65, 65537, 135266369, 65537, 67239937, 67108993, 67108993, 65537, 70385665,
  65537, 65538, 65537, 65539, 134283265, 65537, 5, 65539, 1, 65537, 65541, 135266369, 135266369, 1, 1, 65537, 65541,
  66561, 67239941, 65538, 65543, 1, 65541, 1, 65537, 67587, 135266369, 134283269, 208373153797, 68920803463, 65538,
  66, 69, 65537, 67239937, 67239939, 67239937, 69206146, 65538, 65542, 65540, 69, 66, 131137, 131139, 1089, 1, 67, 67,
  136380419, 137506062536, 136380417, 65537, 134283265, 134283265, 134283267, 68613, 137428995, 1, 65541, 136380418,
  65537, 134283266, 206225670146, 206292713477, 206225670146, 134283267, 71, 131137, 65538, 65541, 208373153793,
  69206149, 67, 65539, 1, 65539, 65539, 5, 65539, 65538, 65541, 65538, 206292713476, 65538, 65542, 65544, 1, 65539,
  65539, 65, 65538, 65538, 65541, 65537, 134283265, 134283265, 134283265, 65, 65538, 67, 134217793, 65537, 134283265,
  134283267, 134283265, 69, 66, 131137, 131139, 65, 131139, 65538, 65538, 65541, 65541, 134283269, 134283265, 1, 67,
  67, 65, 134283267, 68920803457, 65541, 65538, 1089, 136380418, 71068287105, 206225670151, 2228290, 136380417, 65543,
  134283265, 136380419, 137506062536, 134283266, 206225670146, 206292713477, 206225670146, 65537, 65, 65537, 65538,
  65542, 65544, 69337089, 67587, 136314945, 1, 3137, 69337089, 65, 1, 65, 69, 66, 131141, 131141, 68614, 137428997,
  65, 131137, 131139, 131137, 65541, 65538, 134283265, 71, 135266373, 201457733, 131143, 131142, 65537, 67585,
  134283265, 134283265, 208306044993, 1, 67587, 136380417, 134283265, 1, 65, 70385665, 70387713, 135266369, 136380417,
  208306044993, 65538, 3141, 1089, 66, 69, 65537, 67239937, 67239939, 67239937, 134285313, 1, 1, 1093, 65538, 65541,
  134283265, 134283265, 65542, 134283269, 2114, 2228293, 65, 131137, 131139, 131137, 68, 134217795, 68, 131138,
  135266373, 131142, 201457733, 134283265, 65538, 66561, 65, 65538, 65541, 136314945, 65538, 135269441, 135266369,
  68289537, 67108993, 137640345601, 65537, 65, 3138, 3141, 3276865, 3276865, 66563, 135331841, 65538, 134283265, 1089,
  1179713, 1179715, 1179713, 65, 134217793, 65540, 134283266, 67239937, 134283267, 206292713473, 1, 65537, 65541,
  65538, 134283269, 134283269, 66, 131137, 65537, 134283265, 134283267, 134283265, 69, 66, 131137, 65543, 68288517,
  206292713477, 134283271, 134283270, 65537, 66562, 67239937, 65537, 65, 67239937, 67108993, 67108993, 65537, 65,
  67585, 134283265, 134283265, 69208193, 140861505601, 1, 68, 65537, 67239937, 4, 65544, 134283270, 8, 65538,
  134283266, 206292713474, 65538, 206292713474, 134283266, 134283266, 65542, 65543, 134283269, 134283268, 3142,
  3276868, 66, 131138, 131143, 131138, 131137, 134414401, 134414401, 134414401, 66, 131138, 131138, 206292713474,
  65538, 206292713474, 134283266, 134283266, 65538, 65541, 134283269, 134283266, 65538, 134283266, 66, 131138, 131143,
  131138, 131137, 134414401, 134414401, 134414401, 66, 131138, 131138, 206292713474, 65543, 206292713474, 134283266,
  134283266, 65538, 65541, 134283269, 134283266, 65538, 134283266, 65538, 134283266, 134283266, 206292713474, 65543,
  206292713474, 134283266, 134283266, 65538, 65541, 134283269, 134283266, 65538, 134283266, 66, 131138, 131138,
  209446895621, 68613, 136380417, 65, 131137, 131137, 131139, 136380417, 208440197121, 208440197121, 208440197121,
  67585, 136380417, 136380417, 136380417, 136380421, 67585, 136380417, 136380417, 136380417, 136380417, 208440197121,
  208440197121, 208440197121, 134283265, 134283269, 68, 2281898049, 72, 131142, 65538, 134283266, 134283269,
  206292713477, 134283269, 134283271, 134283269, 206292713477, 134283266, 134283269, 134283269, 206292713477,
  134283271, 131141, 134283269, 206292713477, 131141, 134283266, 4, 68, 131138, 206225670146, 208373153794, 67108994,
  136380418, 65538, 3142, 3144, 3276868, 3276870, 66, 131140, 67586, 136380418, 136380418, 136380423, 136380417,
  208373153793, 208373153793, 208373153793, 66, 131138, 131138, 67, 206225670146, 206225670150, 134283266, 67108998,
  65542, 65544, 134283268, 134283270, 65542, 134283268, 66, 131138, 131138, 1096, 1179718, 66, 131138, 131143, 131138,
  131137, 134414401, 134414401, 134414401, 67108994, 206292713473, 65537, 66562, 135331842, 135331847, 135331842,
  134283266, 206225670146, 206292713477, 206225670146, 67108995, 66, 131138, 131138, 131143, 134283266, 206225670146,
  206292713477, 206225670146, 65544, 134283270, 68, 131138, 2228291, 201457729, 2120, 2228294, 134283268, 134283268,
  206225670146, 67108996, 136380424, 208373153798, 136380422, 134283269, 71068287106, 134283270, 131141, 68920803458,
  4, 65544, 134283270, 8, 65538, 134283266, 206292713474, 206292713474, 134283266, 65538, 134283266, 65542, 65543,
  134283269, 134283268, 65538, 134283268, 66, 131138, 131138, 131143, 131137, 134414401, 134414401, 134414401, 65538,
  134283266, 134283266, 206292713474, 206292713474, 134283266, 65538, 134283266, 65538, 65541, 134283269, 134283266,
  65538, 134283266, 65538, 134283266, 134283266, 134283271, 134283265, 206225670145, 206225670145, 206225670145, 66,
  131138, 131138, 206292713474, 206292713474, 134283266, 65543, 134283266, 65538, 65541, 134283269, 134283266, 65538,
  134283266, 65538, 134283266, 134283266, 206292713474, 206292713474, 134283266, 65543, 134283266, 65538, 65541,
  134283269, 134283266, 65538, 134283266, 66, 131138, 131138, 209446895621, 136380417, 68613, 65537, 134283265,
  134283267, 134283265, 136380417, 208440197121, 208440197121, 208440197121, 67585, 136380417, 136380417, 136380417,
  136380421, 67585, 136380417, 136380417, 136380417, 136380417, 208440197121, 208440197121, 208440197121, 134283265,
  134283269, 68, 2281898049, 65544, 134283270, 65538, 134283266, 134283269, 134283271, 206292713477, 134283269,
  134283266, 134283269, 206292713477, 134283269, 134283271, 134283269, 206292713477, 134283269, 131141, 134283266,
  206292713477, 134283269, 2, 69, 3142, 1179717, 1179715, 3279938, 3279943, 3425828929, 3425828929, 3279938,
  3425828929, 1182791, 1278345281, 1180737, 1276248129, 1276248129, 1276248129, 3276868, 1275199555, 3276872,
  1208156231, 1275199553, 3355639874, 1305804537921, 2113, 131139, 2231363, 2231361, 2352087105, 2352087105, 2231361,
  2352087105, 132161, 202506305, 202506305, 202506305, 131137, 131139, 2281898051, 2228291, 201457729, 2336663797825,
  134414403, 134414401, 134283270, 134283266, 134283270, 134283266, 134283270, 134283266, 134283272, 134283272,
  134283272, 70, 70, 67108998, 67108998, 137506062534, 137506062534, 137506062534, 137506062534, 137506062534, 65538,
  65538, 134283266, 134283266, 206292713474, 206292713474, 206292713474, 206292713474, 206292713474, 67108996,
  67108996, 67108996, 134283270, 134283270, 134283270, 66, 131138, 133185, 133185, 131143, 131138, 131137, 134414401,
  134414401, 134414401, 134283269, 135331843, 136380421, 3276871, 206225670149, 3141, 67108997, 137506062533,
  67108997, 69, 67108997, 67108997, 67108994, 67108994, 137506062532, 67111046, 69206150, 137506062534, 137506062534,
  137506062534, 137508159686, 212343183180038, 67108998, 137506062536, 67111046, 67108998, 137506062534, 137506062534,
  212343183180038, 206292713474, 206292713474, 206294810626, 136382470, 209446895624, 136382470, 207299411976, 70,
  67108998, 67108998, 137506062534, 137506062534, 137506062534, 137506062534, 137506062534, 67108998, 67108998,
  67108998, 65538, 134283266, 134283266, 134283271, 134283266, 206225670146, 206292713477, 206225670146, 134283266,
  206292713474, 206292713477, 206292713474, 134283266, 206292713474, 206292713477, 206292713474, 65541, 2, 65538,
  134283268, 134283267, 134286338, 134286343, 206295859201, 206295859201, 136383491, 208443342849, 134286338,
  206295859201, 134284289, 206293762049, 206293762049, 206293762049, 136380417, 206292713475, 134283268, 206225670146,
  206292713473, 208373153795, 281612482969601, 67585, 134283267, 136383491, 136383489, 208443342849, 208443342849,
  136383489, 208443342849, 134284289, 206293762049, 206293762049, 206293762049, 134283265, 134283267, 208373153795,
  136380419, 206292713473, 283742853857281, 206225670147, 206225670145, 67108994, 67108994, 67108994, 67108997,
  67108997, 67108997, 134283266, 134283266, 134283266, 66, 66, 67108994, 67108994, 137506062530, 137506062530,
  137506062530, 137506062530, 137506062530, 66, 66, 67108994, 67108994, 137506062530, 137506062530, 137506062530,
  137506062530, 137506062530, 67108994, 67108994, 67108994, 67108994, 67108994, 67108994, 66, 131138, 133185, 133185,
  131138, 131143, 131137, 134414401, 134414401, 134414401, 134283267, 67108993, 134283269, 67109000, 207299411974, 65,
  67108993, 67108993, 137506062529, 67108998, 67108998, 67108994, 67108994, 134283266, 134283266, 206292713474,
  206292713474, 206292713474, 206292713474, 281681269424130, 67111046, 67108998, 137506062534, 137506062534,
  137508159686, 212343183180038, 67108994, 137506062532, 66566, 134283268, 206292713478, 206292713474, 206292713474,
  206292713474, 134283266, 206292713476, 65542, 134283270, 134283270, 206292713478, 206292713478, 206292713478,
  206292713478, 206292713478, 134283270, 134283270, 134283270, 65538, 134283266, 134283271, 134283266, 67108994,
  67108994, 67108994, 68920803458, 68719673474, 68719673474, 68719673477, 68719673477, 68719673477, 68920803458,
  68719673474, 68719673474, 134283265, 134283267, 134283265, 134283267, 1, 134283265, 134283267, 134283265, 134283267,
  134283265, 134283267, 134283267, 206292713473, 206292713475, 206292713473, 206292713475, 65537, 65539, 65537,
  134283267, 134285315, 134283267, 135332867, 134285315, 135334915, 206292713475, 207299411971, 206292713475,
  207299411971, 65539, 67587, 65539, 67587, 134283267, 134284291, 134283267, 136382467, 134284291, 136383491,
  134283265, 134283265, 134283265, 134283265, 134283265, 134283265, 134283265, 206292713473, 206292713473,
  206292713473, 206292713473, 206292713473, 206292713473, 206292713473, 134283265, 134283265, 136382465, 206292713473,
  206292713473, 206292713473, 206292713473, 208442294273, 208442294273, 206292713473, 206292713473, 208442294273,
  134283267, 134283267, 134283267, 134283267, 206292713475, 208373153795, 206292713475, 208373153795, 134283265,
  136380417, 134283265, 136380417, 206292713473, 206293762049, 206292713473, 208442294273, 206293762049, 208443342849,
  206292713473, 206292713473, 206292713473, 206292713473, 281681269424129, 283811640311809, 281681269424129,
  283811640311809, 65537, 66561, 65537, 66561, 134283265, 135331841, 134283265, 135331841, 134283267, 134285315,
  134283267, 134285315, 206292713475, 206292713475, 206292713475, 206292713475, 206292713475, 206292713475,
  206292713475, 206292713475, 206294810627, 206292713475, 207367503875, 206294810627, 207369601027, 281681269424131,
  282780714008579, 281681269424131, 282780714008579, 134283265, 134283267, 134283265, 134283265, 134283267, 134283265,
  134283267, 136382465, 136382467, 134283265, 136382465, 134283265, 65539, 65539, 65539, 134283267, 134283267,
  134283267, 134283267, 134283267, 134283267, 206292713475, 206292713475, 206292713475, 206292713475, 208442294275,
  208442294275, 206292713475, 208442294275, 206292713475, 206292713475, 206292713475, 206292713475, 206292713475,
  206292713475, 206292713475, 206292713475, 207367503875, 207367503875, 206292713475, 207367503875, 206292713475,
  134283267, 134283267, 134283267, 134283267, 134283267, 134283267, 134283267, 135332867, 135332867, 134283267,
  135332867, 134283267, 65537, 134283265, 134283267, 134283267, 65537, 134283265, 134283265, 134283265, 134283265,
  134284289, 134283265, 134284289, 134283265, 206292713473, 206292713473, 206292713473, 134283265, 206292713475,
  206225670147, 206225670147, 134283265, 134283265, 135332865, 206292713475, 206292713475, 206292713475, 206292713475,
  207367503875, 207367503875, 206292713475, 206292713475, 207367503875, 134283267, 134283265, 134283265, 134283267, 1,
  134283267, 134283267, 134283265, 134283265, 134283267, 134283265, 134283267, 206292713475, 206292713473,
  206292713473, 206292713475, 65537, 65537, 65539, 134285315, 135334915, 134283267, 135332867, 134283267, 134285315,
  207299411971, 206292713475, 206292713475, 207299411971, 67587, 65539, 65539, 67587, 134284291, 136383491, 134283267,
  136382467, 134283267, 134284291, 134283265, 134283265, 134283265, 134283265, 134283265, 134283265, 134283265,
  206292713473, 206292713473, 206292713473, 206292713473, 206292713473, 206292713473, 206292713473, 134283265,
  136382465, 134283265, 206292713473, 208442294273, 206292713473, 206292713473, 206292713473, 208442294273,
  208442294273, 206292713473, 206292713473, 134283267, 134283267, 134283267, 134283267, 206292713475, 208373153795,
  206292713475, 208373153795, 136380417, 134283265, 134283265, 136380417, 206293762049, 208443342849, 206292713473,
  208442294273, 206292713473, 206293762049, 206292713473, 206292713473, 206292713473, 206292713473, 281681269424129,
  283811640311809, 281681269424129, 283811640311809, 66561, 65537, 65537, 66561, 135331841, 134283265, 134283265,
  135331841, 134285315, 134283267, 134283267, 134285315, 206292713475, 206292713475, 206292713475, 206292713475,
  206292713475, 206292713475, 206292713475, 206294810627, 207369601027, 206292713475, 207367503875, 206292713475,
  206294810627, 282780714008579, 281681269424131, 281681269424131, 282780714008579, 134283265, 134283265, 134283267,
  134283265, 134283265, 136382465, 134283265, 134283267, 136382465, 136382467, 134283265, 134283267, 65539, 65539,
  65539, 134283267, 134283267, 134283267, 134283267, 134283267, 134283267, 206292713475, 206292713475, 208442294275,
  206292713475, 206292713475, 208442294275, 208442294275, 206292713475, 206292713475, 206292713475, 206292713475,
  206292713475, 206292713475, 206292713475, 207367503875, 206292713475, 206292713475, 207367503875, 207367503875,
  206292713475, 206292713475, 134283267, 134283267, 134283267, 134283267, 134283267, 135332867, 134283267, 134283267,
  135332867, 135332867, 134283267, 134283267, 65537, 134283267, 134283265, 134283267, 65537, 134283265, 134283265,
  134283265, 134284289, 134283265, 134283265, 134284289, 134283265, 206292713473, 206292713473, 206292713473,
  134283265, 206225670147, 206292713475, 206225670147, 134283265, 135332865, 134283265, 206292713475, 207367503875,
  206292713475, 206292713475, 206292713475, 207367503875, 207367503875, 206292713475, 206292713475, 134283265,
  134283265, 65537, 66561, 1, 1, 206292713473, 207299411969, 134283267, 134283267, 134283267, 134283267, 134283267,
  134283267, 65537, 65539, 65537, 134283265, 134283267, 134283265, 134283267, 134283267, 134283267, 134283267,
  134283267, 134283267, 65537, 65539, 65537, 134283265, 134283267, 134283265, 134283267, 134283267, 134283267,
  134283267, 134283267, 134283267, 65537, 65539, 65537, 134283265, 134283267, 134283265, 134283267, 134283267,
  134283267, 134283267, 134283267, 134283267, 65537, 65539, 65537, 134283265, 134283267, 134283265, 134283265,
  134283265, 134283267, 134283267, 65539, 65539, 134283267, 134283267, 134283265, 134283265, 134283267, 134283267,
  65539, 65539, 134283267, 134283267, 134283265, 134283265, 134283265, 134283265, 134283265, 134283265, 134283265,
  134283265, 134283265, 134283265, 134283265, 134283265, 65537, 65537, 65537, 65537, 65537, 206292713475,
  206225670147, 206225670147, 65537, 206292713475, 206225670147, 206225670147, 65537, 65537, 65537, 65537, 65537,
  65537, 206292713473, 206292713473, 206292713473, 206292713473, 206292713473, 206292713473, 206292713475,
  206292713475, 206292713475, 206292713475, 206292713475, 206292713475, 206292713475, 206292713475, 206292713475,
  206292713475, 206292713475, 206292713475, 65537, 67585, 134283265, 134283265, 206292713473, 208373153793, 134283265,
  134283265, 65537, 66561, 1, 206292713473, 207299411969, 134283267, 134283267, 134283267, 134283267, 134283267,
  134283267, 65537, 65537, 65539, 134283265, 134283265, 134283267, 134283267, 65539, 134283267, 134283267, 65539,
  134283267, 134283267, 134283267, 134283267, 134283267, 134283267, 134283267, 65537, 65539, 65537, 134283265,
  134283267, 134283265, 134283265, 134283267, 134283265, 134283267, 65539, 134283267, 134283265, 134283265, 134283267,
  134283267, 65539, 134283267, 134283265, 134283265, 134283265, 134283265, 134283265, 134283265, 134283265, 134283265,
  134283265, 134283265, 65537, 65537, 65537, 206225670147, 206292713475, 206225670147, 65537, 206292713475,
  206225670147, 206225670147, 65537, 65537, 65537, 65537, 206292713473, 206292713473, 206292713473, 206292713473,
  206292713473, 206292713473, 206292713475, 206292713475, 206292713475, 206292713475, 206292713475, 206292713475,
  206292713475, 206292713475, 65537, 67585, 134283265, 134283265, 206292713473, 208373153793, 134283265, 134283265,
  65537, 66561, 1, 206292713473, 207299411969, 134283267, 65539, 134283267, 134283267, 134283267, 134283267,
  134283267, 134283267, 134283267, 65537, 65539, 65537, 134283265, 134283267, 134283265, 134283267, 134283267,
  134283267, 134283267, 134283267, 134283267, 65537, 65537, 65539, 134283265, 134283265, 134283267, 134283267, 65539,
  134283267, 134283265, 134283267, 134283265, 134283267, 65539, 134283267, 134283265, 134283265, 134283267, 134283267,
  65539, 134283267, 134283265, 134283265, 134283265, 134283265, 134283265, 134283265, 134283265, 134283265, 134283265,
  134283265, 65537, 65537, 65537, 206225670147, 206292713475, 206225670147, 65537, 206292713475, 206225670147,
  206225670147, 65537, 65537, 65537, 65537, 206292713473, 206292713473, 206292713473, 206292713473, 206292713473,
  206292713473, 206292713475, 206292713475, 206292713475, 206292713475, 206292713475, 206292713475, 206292713475,
  206292713475, 67585, 65537, 134283265, 134283265, 206292713473, 208373153793, 1, 65537, 134283265, 206292713473,
  206292713473, 134283265, 134283265, 65537, 65537, 65537, 134283265, 134283265, 65537, 134283265, 65537, 134283265,
  134283265, 134283265, 134283265, 206292713473, 206292713473, 206292713473, 65537, 134283265, 134283265, 65537,
  206292713473, 206292713473, 134283265, 134283265, 65537, 65537, 134283265, 134283265, 65537, 134283265, 65537,
  134283265, 134283265, 65537, 134283265, 65537, 134283265, 134283265, 134283265, 134283265, 206292713473,
  206292713473, 206292713473, 136380417, 208440197121, 67585, 67585, 136380417, 136380417, 136380417, 136380417,
  208440197121, 208440197121, 208440197121, 136380417, 67585, 136380417, 136380417, 136380417, 136380417,
  208440197121, 208440197121, 208440197121, 65537, 134283265, 67589, 134283269, 134283269, 206292713477, 65537,
  134283265, 134283265, 134283265, 206292713473, 134283265, 134283265, 206292713473, 134283265, 134283265,
  206292713473, 134283265, 134283265, 206292713473, 134283265, 134283265, 66561, 65537, 1, 207299411969, 206292713473,
  134283267, 65539, 134283267, 134283267, 134283267, 134283267, 134283267, 134283267, 134283267, 65537, 65537, 65539,
  134283265, 134283265, 134283267, 134283267, 134283267, 134283267, 134283267, 134283267, 134283267, 65537, 65539,
  65537, 134283265, 134283267, 134283265, 134283267, 65539, 134283267, 134283265, 134283265, 134283267, 134283267,
  65539, 134283267, 134283265, 134283267, 134283265, 134283267, 65539, 134283267, 134283265, 134283265, 134283265,
  134283265, 134283265, 134283265, 134283265, 134283265, 134283265, 134283265, 65537, 65537, 65537, 206292713475,
  206225670147, 206225670147, 65537, 206225670147, 206292713475, 206225670147, 65537, 65537, 65537, 65537,
  206292713473, 206292713473, 206292713473, 206292713473, 206292713473, 206292713473, 206292713475, 206292713475,
  206292713475, 206292713475, 206292713475, 206292713475, 206292713475, 206292713475, 65537, 67585, 134283265,
  134283265, 206292713473, 208373153793, 5, 65537, 134283265, 206292713473, 206292713473, 134283265, 134283265, 65541,
  65537, 65537, 134283265, 134283265, 65537, 134283265, 66561, 135331841, 135331841, 135331841, 135331841,
  207366455297, 207366455297, 207366455297, 65537, 134283265, 134283265, 65541, 206292713473, 206292713473, 134283265,
  134283265, 65537, 65537, 134283265, 134283265, 65537, 134283265, 65537, 134283265, 134283265, 65537, 134283265,
  66561, 135331841, 135331841, 135331841, 135331841, 207366455297, 207366455297, 207366455297, 134283269,
  207299411973, 66565, 65537, 134283265, 134283265, 134283265, 134283265, 206292713473, 206292713473, 206292713473,
  134283269, 65537, 134283265, 134283265, 134283265, 134283265, 206292713473, 206292713473, 206292713473, 65537,
  134283265, 66561, 135331841, 135331841, 207366455297, 65537, 134283265, 134283269, 134283265, 206292713473,
  134283269, 134283265, 206292713473, 134283265, 134283265, 206292713473, 134283265, 134283265, 206292713473,
  134283265, 134283265, 66561, 65537, 1, 207299411969, 206292713473, 134283267, 134283267, 134283267, 134283267,
  134283267, 134283267, 65537, 65539, 65537, 134283265, 134283267, 134283265, 134283267, 65539, 134283267, 134283267,
  65539, 134283267, 134283267, 134283267, 134283267, 134283267, 134283267, 134283267, 65537, 65537, 65539, 134283265,
  134283265, 134283267, 134283265, 134283265, 134283267, 134283267, 65539, 134283267, 134283265, 134283267, 134283265,
  134283267, 65539, 134283267, 134283265, 134283265, 134283265, 134283265, 134283265, 134283265, 134283265, 134283265,
  134283265, 134283265, 65537, 65537, 65537, 206292713475, 206225670147, 206225670147, 65537, 206225670147,
  206292713475, 206225670147, 65537, 65537, 65537, 65537, 206292713473, 206292713473, 206292713473, 206292713473,
  206292713473, 206292713473, 206292713475, 206292713475, 206292713475, 206292713475, 206292713475, 206292713475,
  206292713475, 206292713475, 67585, 65537, 134283265, 134283265, 206292713473, 208373153793, 5, 65537, 134283265,
  206292713473, 206292713473, 134283265, 134283265, 65541, 65537, 65537, 134283265, 134283265, 65537, 134283265,
  66561, 135331841, 135331841, 135331841, 135331841, 207366455297, 207366455297, 207366455297, 65537, 134283265,
  134283265, 65541, 206292713473, 206292713473, 134283265, 134283265, 65537, 65537, 134283265, 134283265, 65537,
  134283265, 65537, 134283265, 134283265, 65537, 134283265, 66561, 135331841, 135331841, 135331841, 135331841,
  207366455297, 207366455297, 207366455297, 136380421, 209446895621, 68613, 67585, 136380417, 136380417, 136380417,
  136380417, 208440197121, 208440197121, 208440197121, 136380421, 67585, 136380417, 136380417, 136380417, 136380417,
  208440197121, 208440197121, 208440197121, 65537, 134283265, 68613, 135331845, 135331845, 207366455301, 65537,
  134283265, 134283269, 134283265, 206292713473, 134283269, 134283265, 206292713473, 134283265, 134283265,
  206292713473, 134283265, 134283265, 206292713473, 134283265, 134283265, 65537, 66561, 1, 1, 206292713473,
  207299411969, 134283267, 134283267, 134283267, 134283267, 134283267, 134283267, 65537, 65537, 65539, 134283265,
  134283265, 134283267, 134283267, 134283267, 134283267, 134283267, 134283267, 134283267, 65537, 65537, 65539,
  134283265, 134283265, 134283267, 134283267, 134283267, 134283267, 134283267, 134283267, 134283267, 65537, 65537,
  65539, 134283265, 134283265, 134283267, 134283267, 134283267, 134283267, 134283267, 134283267, 134283267, 65537,
  65537, 65539, 134283265, 134283265, 134283267, 134283265, 134283267, 134283265, 134283267, 65539, 65539, 134283267,
  134283267, 134283265, 134283267, 134283265, 134283267, 65539, 65539, 134283267, 134283267, 134283265, 134283265,
  134283265, 134283265, 134283265, 134283265, 134283265, 134283265, 134283265, 134283265, 134283265, 134283265, 65537,
  65537, 65537, 65537, 65537, 206225670147, 206292713475, 206225670147, 65537, 206225670147, 206292713475,
  206225670147, 65537, 65537, 65537, 65537, 65537, 65537, 206292713473, 206292713473, 206292713473, 206292713473,
  206292713473, 206292713473, 206292713475, 206292713475, 206292713475, 206292713475, 206292713475, 206292713475,
  206292713475, 206292713475, 206292713475, 206292713475, 206292713475, 206292713475, 65537, 67585, 134283265,
  134283265, 206292713473, 208373153793]

def split_lams_CCSD_G : List Nat := [
  1, 1, 1, 1, 1, 1, 1, 1, 1, 1, 1, 1, 1, 1, 65537, 65541, 65539, 65537, 65537, 65, 65537, 65, 65, 65539, 65, 65537, 1,
  65539, 1, 65537, 65537, 65537, 65, 137363521, 65, 131138, 65537, 65537, 206292713479, 134283265, 134283271,
  134284289, 67108994, 71, 131137, 71, 131137, 67108994, 131137, 131137, 133185, 134283265, 134283265, 208373153793,
  134209, 67239937, 65, 65, 67587, 135266369, 1, 65537, 67587, 65539, 67239940, 67585, 136380417, 136380417, 65539,
  134283267, 67587, 65543, 134283267, 134283265, 65537, 134283265, 135331841, 134283266, 134283266, 135331841,
  135331841, 67587, 135266369, 206225670146, 66561, 65538, 65541, 65537, 67239937, 65537, 68288513, 136382465,
  209379721345, 65537, 1, 65537, 70, 131140, 65537, 134283266, 65541, 134283266, 68, 136314947, 131139, 134414404,
  65537, 65, 137363521, 67239937, 67108993, 65537, 134283269, 5, 65, 134283269, 134283269, 65541, 134283269,
  134283269, 134283269, 65541, 134283269, 134283269, 134283269, 65541, 134283269, 134283269, 134283269, 65541,
  134283269, 134283265, 134283269, 134283265, 134283265, 65541, 134283269, 134283265, 134283269, 134283265, 134283265,
  65541, 134283269, 135331841, 134283270, 134283270, 135331841, 135331841, 135331841, 134283270, 134283270, 135331841,
  135331841, 65537, 65541, 65537, 65541, 66, 65538, 65538, 65538, 134283269, 206292713477, 134283269, 206292713477,
  134283269, 206292713477, 134283269, 206292713477, 206292713473, 206292713473, 65537, 206292713473, 65537,
  206292713473, 65541, 134283265, 134283269, 206292713473, 69206149, 139653546181, 2, 70, 134285315, 206292713478,
  67108998, 134283269, 68920803461, 65537, 134283265, 136383489, 208443342849, 134284289, 206293762049, 134283265,
  206292713473, 134283265, 206292713473, 206225670145, 281612482969601, 67, 131137, 67108997, 137506062535,
  137506062533, 211243738595589, 67108997, 67108997, 65541, 134283269, 206292713477, 206292713477, 206292713477,
  67108998, 67108998, 66, 131143, 65538, 134283269, 134285313, 134283265, 206225670146, 134283266, 206292713479,
  134283266, 206292713479]

def split_lams_CCSD_U : List Nat := [
  1, 1, 1, 1, 1, 1, 1, 1, 1, 1, 1, 1, 1, 1, 1, 1, 1, 1, 1, 1, 1, 1, 1, 1, 1, 1, 1, 1, 1, 1, 1, 1, 1, 1, 1, 1, 1, 1, 1,
  1, 1, 1, 1, 65541, 65543, 65541, 69, 71, 65537, 65, 1, 1, 65537, 1, 1, 1, 65537, 1, 65, 1, 1, 1, 1, 1, 65537, 2115,
  65, 65537, 65537, 65, 65, 65, 68613, 65541, 66561, 65537, 67239937, 67239939, 67239937, 66, 69, 3140, 65537, 65541,
  66, 68, 69, 68614, 65, 134283265, 1090, 65, 65, 67, 65, 68613, 65537, 69, 69, 65543, 65541, 134283265, 65, 65, 65,
  65538, 65541, 65544, 65537, 66, 137363521, 65537, 69, 71, 65537, 68609, 65, 65537, 65537, 65539, 65537, 65537,
  65537, 65537, 65537, 65, 65537, 67239937, 67239937, 67239939, 65537, 65, 65541, 65537, 65537, 65537, 67239937, 65,
  134217793, 65537, 65, 1089, 65537, 134217793, 1089, 65537, 65538, 1, 65537, 65538, 65537, 65537, 67587, 135266369,
  1, 65539, 65537, 1, 1, 65537, 68, 1, 65537, 3137, 65, 1, 65537, 65538, 65537, 65537, 65538, 65541, 1, 67587,
  135266369, 1, 1, 1, 65537, 65539, 65538, 65538, 65541, 68289537, 65, 70385665, 68, 65, 5, 65539, 1, 65537, 65541,
  65538, 65537, 65539, 134283265, 65537, 65, 137366593, 135266369, 1, 65537, 1, 65541, 68613, 67239941, 65538, 65543,
  65, 68288513, 137363521, 65, 134217793, 134283265, 134283265, 68288513, 68288513, 68613, 67239941, 65538, 65543, 1,
  65537, 1, 65541, 67239937, 67108993, 67108993, 1, 1, 65537, 65541, 66561, 69206149, 136380418, 65539, 1,
  208373153793, 65538, 134283266, 134285313, 134285313, 134283271, 134283266, 134283265, 206225670145, 206225670145,
  206225670145, 71, 131137, 71068287109, 134283267, 134283267, 65, 131137, 132161, 132161, 131139, 131137, 67108996,
  137506062532, 134283265, 134283265, 67108993, 67108993, 69, 68, 134209, 134209, 131139, 131139, 68613, 137428995,
  137432065, 137432065, 68920803463, 67108995, 67108995, 67108995, 65537, 136380418, 134283266, 206225670146,
  206292713477, 206225670146, 136380417, 136380419, 1, 65539, 65539, 65541, 65541, 68613, 134283269, 67108995,
  67108995, 67108995, 65, 65, 67591, 5, 65539, 134283268, 206292713476, 65538, 65542, 65544, 65538, 65544, 65542,
  65538, 65539, 67239937, 67, 66563, 134283267, 134283267, 134283267, 67108993, 67108993, 67108993, 67108993, 2228290,
  65, 68613, 134283269, 206225670151, 65, 131137, 132161, 132161, 131137, 131139, 65, 67108993, 1, 65539, 65539,
  67108996, 137506062532, 1, 67108994, 68920803458, 68920803458, 68719673477, 69206145, 136380418, 69206147, 71,
  131137, 206225670145, 65541, 65, 131139, 134209, 134209, 69, 68, 134209, 134209, 131139, 131139, 65541, 65538,
  134283266, 134285313, 134285313, 134283266, 134283271, 134283265, 206225670145, 206225670145, 206225670145,
  134283267, 134283267, 208373153793, 65, 65, 137363521, 70387713, 68288513, 136380417, 208306044993, 134217793,
  134283265, 134283265, 134283265, 1, 69337089, 1, 1093, 65538, 65541, 134283269, 134283269, 65542, 134283269, 67586,
  136380421, 65537, 134283265, 134283267, 134283265, 65540, 67239939, 68, 131138, 135266373, 131142, 201457733, 65538,
  65544, 65542, 65537, 67585, 134283265, 134283265, 208306044993, 134217793, 1, 65537, 65541, 65538, 134283269,
  134283269, 68614, 137428997, 65537, 134283265, 134283267, 134283265, 69, 66, 131137, 65543, 68288517, 206292713477,
  134283271, 134283270, 2115, 136314945, 67587, 136380417, 1, 67239937, 67108993, 67108993, 1, 65537, 67111041, 1,
  65538, 65542, 65544, 1090, 67239937, 65537, 67585, 134283265, 208306044993, 134283265, 1, 134217793, 1, 69337089, 1,
  66561, 69, 66, 131141, 131141, 66, 131137, 65, 131137, 131137, 131139, 65541, 65538, 134283265, 71, 135266373,
  201457733, 131143, 131142, 134283265, 67587, 136380417, 65537, 65537, 68610, 68613, 137428997, 137428997, 66563,
  135331841, 66, 131137, 66561, 135331841, 135331841, 135331843, 65, 134217793, 68, 131138, 134217793, 131139,
  201457729, 1, 65, 66, 68291585, 68288513, 68289537, 134283265, 206158561345, 65, 134285313, 4, 134283270, 134283270,
  72, 131142, 8, 134283270, 134283270, 65538, 134283266, 65538, 206292713474, 134283266, 206292713474, 134283266, 70,
  72, 134210, 134210, 131142, 131140, 68614, 137428996, 137432066, 137432066, 66561, 135331841, 135331841, 135331841,
  135331841, 135331841, 135331841, 207366455297, 207366455297, 207366455297, 65538, 134283266, 134283266, 65538,
  206292713474, 134283266, 206292713474, 134283266, 65538, 65541, 134283266, 134283266, 134283269, 134283266, 65538,
  134283266, 134283266, 134283266, 66561, 135331841, 135331841, 135331841, 135331841, 135331841, 135331841,
  207366455297, 207366455297, 207366455297, 66, 131138, 131138, 65543, 206292713474, 134283266, 206292713474,
  134283266, 65538, 65541, 134283266, 134283266, 134283269, 134283266, 65538, 134283266, 134283266, 134283266, 66,
  131138, 131138, 65543, 206292713474, 134283266, 206292713474, 134283266, 65538, 65541, 134283266, 134283266,
  134283269, 134283266, 65538, 134283266, 134283266, 134283266, 66, 131138, 131138, 68613, 136380417, 136382469,
  209446895621, 67585, 136380417, 136380417, 136380417, 136380417, 136380417, 136380417, 208440197121, 208440197121,
  208440197121, 136380421, 67585, 136380417, 136380417, 136380417, 136380417, 136380417, 136380417, 208440197121,
  208440197121, 208440197121, 134283265, 134283269, 68, 131137, 2281898049, 134283266, 134283266, 72, 131142,
  134283266, 134283266, 65538, 134283266, 206292713477, 134283269, 134283269, 134283269, 134283269, 134283271,
  134283271, 134283271, 206292713477, 131141, 134283269, 134283269, 134283269, 134283266, 134283266, 134283266,
  206292713477, 131141, 134283269, 134283269, 134283269, 134283271, 134283271, 134283271, 206292713477, 131141,
  134283269, 134283269, 134283269, 134283266, 134283266, 134283266, 4, 134283266, 134283266, 65540, 134283266, 65538,
  69206146, 71068287106, 206225670146, 67108994, 3142, 3144, 3279938, 3279938, 3276868, 3276870, 66, 131140, 134210,
  134210, 2114, 2228290, 2230337, 2230337, 2228290, 2228295, 2228289, 2281898049, 2281898049, 2281898049, 66, 131138,
  131138, 67108998, 206225670150, 68920803458, 65539, 67108994, 65542, 65544, 134286338, 134286338, 134283270,
  134283268, 65542, 134283268, 134286338, 134286338, 66, 131138, 131138, 1096, 1179718, 65538, 134283266, 134285313,
  134285313, 134283271, 134283266, 134283265, 206225670145, 206225670145, 206225670145, 65537, 67108994, 134283265,
  206292713473, 1090, 1179714, 1180737, 1180737, 1179714, 1179719, 134283266, 206225670146, 206225670146,
  206292713477, 134283267, 66, 131138, 132161, 132161, 131143, 131138, 134283266, 206225670146, 206292713477,
  206225670146, 134283270, 134283270, 65544, 134283270, 65540, 134283266, 134283265, 136380419, 206292713473, 2120,
  2228294, 135334917, 134283268, 206225670146, 67108996, 67108996, 67108996, 136383493, 136380424, 208373153798,
  67108996, 67108996, 67108996, 71068287106, 69206150, 131141, 134283270, 134283270, 67108998, 68920803458, 131141,
  134283270, 134283270, 4, 134283270, 134283270, 72, 131142, 8, 134283270, 134283270, 65538, 134283266, 65538,
  206292713474, 134283266, 206292713474, 134283266, 70, 72, 134210, 134210, 131140, 131142, 66, 131140, 134210,
  134210, 66561, 135331841, 135331841, 135331841, 135331841, 135331841, 135331841, 207366455297, 207366455297,
  207366455297, 65538, 134283266, 134283266, 65538, 206292713474, 134283266, 206292713474, 134283266, 65538, 65541,
  134283266, 134283266, 134283266, 134283269, 65538, 134283266, 134283266, 134283266, 66561, 135331841, 135331841,
  135331841, 135331841, 135331841, 135331841, 207366455297, 207366455297, 207366455297, 66, 131138, 131138, 65543,
  206292713474, 134283266, 206292713474, 134283266, 65538, 65541, 134283266, 134283266, 134283266, 134283269, 65538,
  134283266, 134283266, 134283266, 66, 131138, 131138, 65543, 206292713474, 134283266, 206292713474, 134283266, 65538,
  65541, 134283266, 134283266, 134283266, 134283269, 65538, 134283266, 134283266, 134283266, 66, 131138, 131138,
  68613, 136380417, 136382469, 209446895621, 67585, 136380417, 136380417, 136380417, 136380417, 136380417, 136380417,
  208440197121, 208440197121, 208440197121, 136380421, 67585, 136380417, 136380417, 136380417, 136380417, 136380417,
  136380417, 208440197121, 208440197121, 208440197121, 134283265, 134283269, 68, 131137, 2281898049, 134283266,
  134283266, 72, 131142, 134283266, 134283266, 65538, 134283266, 134283269, 134283269, 206292713477, 134283269,
  134283269, 134283271, 134283271, 134283271, 134283269, 131141, 206292713477, 134283269, 134283269, 134283266,
  134283266, 134283266, 134283269, 131141, 206292713477, 134283269, 134283269, 134283271, 134283271, 134283271,
  134283269, 134283269, 206292713477, 134283269, 134283269, 134283266, 134283266, 134283266, 65541, 2, 3142, 1179717,
  1179715, 3279943, 3279938, 3425828929, 3425828929, 3279938, 3425828929, 1182791, 1278345281, 1180737, 1276248129,
  1276248129, 1276248129, 3276868, 1275199555, 3276872, 1208156231, 1275199553, 3355639874, 1305804537921, 67585,
  134283267, 136383491, 136383489, 208443342849, 208443342849, 136383489, 208443342849, 134284289, 206293762049,
  206293762049, 206293762049, 134283265, 134283267, 208373153795, 136380419, 206292713473, 283742853857281,
  206225670147, 206225670145, 134283266, 134283269, 134283266, 134283269, 134283266, 134283269, 134283270, 134283270,
  134283270, 65538, 65538, 134283266, 134283266, 206292713474, 206292713474, 206292713474, 206292713474, 206292713474,
  65542, 65542, 134283270, 134283270, 206292713478, 206292713478, 206292713478, 206292713478, 206292713478, 67108996,
  67108996, 67108996, 67108998, 67108998, 67108998, 66, 131138, 133185, 133185, 131143, 131138, 131137, 134414401,
  134414401, 134414401, 137428999, 67108997, 69206149, 68613, 134283269, 206292713477, 134283269, 134283266,
  134283269, 134283266, 134283269, 67111046, 69206150, 137506062534, 137506062534, 137506062534, 137508159686,
  212343183180038, 67109000, 137506062534, 1094, 131140, 137506062532, 137506062533, 134285318, 134283270,
  206292713478, 206292713478, 282780714008582, 137506062534, 137506062534, 137508159686, 69208200, 138512761030,
  136382472, 209446895622, 65542, 134283270, 134283270, 206292713478, 206292713478, 206292713478, 206292713478,
  206292713478, 67108998, 67108998, 67108998, 65538, 134283266, 134283271, 134283266, 134283266, 206225670146,
  206292713477, 206225670146, 134283266, 206292713474, 206292713477, 206292713474, 134283266, 206292713474,
  206292713477, 206292713474, 69, 2, 66, 131140, 131139, 134215, 134210, 204603457, 204603457, 2231363, 2352087105,
  134210, 204603457, 132161, 202506305, 202506305, 202506305, 2228289, 201457731, 131140, 134414402, 201457729,
  2281898051, 206292910145, 67585, 134283267, 136383491, 136383489, 208443342849, 208443342849, 136383489,
  208443342849, 134284289, 206293762049, 206293762049, 206293762049, 134283265, 134283267, 208373153795, 136380419,
  206292713473, 283742853857281, 206225670147, 206225670145, 67108998, 67108998, 67108998, 67108994, 67108994,
  67108994, 134283266, 134283266, 134283266, 66, 66, 67108994, 67108994, 137506062530, 137506062530, 137506062530,
  137506062530, 137506062530, 66, 66, 67108994, 67108994, 137506062530, 137506062530, 137506062530, 137506062530,
  137506062530, 134283266, 134283266, 134283266, 67108994, 67108994, 67108994, 65538, 134283266, 134285313, 134285313,
  134283266, 134283271, 134283265, 206225670145, 206225670145, 206225670145, 134283265, 131139, 131139, 134283269,
  206225670148, 65537, 134283265, 134283265, 206292713473, 67108994, 67108994, 67108997, 67108997, 67108994, 67108994,
  137506062530, 137506062530, 137506062530, 137506062530, 211243738595586, 67108994, 137506062532, 65541,
  206292713477, 67111046, 67108998, 137506062534, 212343183180038, 137506062534, 206292713474, 206294810626,
  206292713474, 136382470, 207299411976, 67108994, 137506062532, 70, 67108998, 67108998, 137506062534, 137506062534,
  137506062534, 137506062534, 137506062534, 67108998, 67108998, 67108998, 65538, 134283266, 134283266, 134283271,
  134283266, 206225670146, 206225670146, 206292713477, 134283266, 206292713474, 206292713474, 206292713477, 134283266,
  206292713474, 206292713474, 206292713477, 1, 65537, 65539, 65537, 134283267, 134285315, 134283267, 135332867,
  134285315, 135334915, 206292713475, 207299411971, 206292713475, 207299411971, 134283265, 134283267, 134283265,
  134283267, 134283265, 134283267, 134283265, 134283267, 134283265, 134283267, 134283267, 206292713473, 206292713475,
  206292713473, 206292713475, 65539, 67587, 65539, 67587, 134283267, 134284291, 134283267, 136382467, 134284291,
  136383491, 134283265, 134283265, 134283265, 134283265, 134283265, 134283265, 134283265, 206292713473, 206292713473,
  206292713473, 206292713473, 206292713473, 206292713473, 206292713473, 134283265, 134283265, 136382465, 206292713473,
  206292713473, 206292713473, 206292713473, 208442294273, 208442294273, 206292713473, 206292713473, 208442294273,
  134283267, 134283267, 134283267, 134283267, 206292713475, 208373153795, 206292713475, 208373153795, 134283265,
  136380417, 134283265, 136380417, 206292713473, 206293762049, 206292713473, 208442294273, 206293762049, 208443342849,
  206292713473, 206292713473, 206292713473, 206292713473, 281681269424129, 283811640311809, 281681269424129,
  283811640311809, 65537, 66561, 65537, 66561, 134283265, 135331841, 134283265, 135331841, 134283267, 134285315,
  134283267, 134285315, 206292713475, 206292713475, 206292713475, 206292713475, 206292713475, 206292713475,
  206292713475, 206292713475, 206294810627, 206292713475, 207367503875, 206294810627, 207369601027, 281681269424131,
  282780714008579, 281681269424131, 282780714008579, 134283265, 134283267, 134283265, 134283265, 134283267, 134283265,
  134283267, 136382465, 136382467, 134283265, 136382465, 134283265, 65539, 65539, 65539, 134283267, 134283267,
  134283267, 134283267, 134283267, 134283267, 206292713475, 206292713475, 206292713475, 206292713475, 208442294275,
  208442294275, 206292713475, 208442294275, 206292713475, 206292713475, 206292713475, 206292713475, 206292713475,
  206292713475, 206292713475, 206292713475, 207367503875, 207367503875, 206292713475, 207367503875, 206292713475,
  134283267, 134283267, 134283267, 134283267, 134283267, 134283267, 134283267, 135332867, 135332867, 134283267,
  135332867, 134283267, 65537, 134283265, 134283267, 134283267, 65537, 134283265, 134283265, 134283265, 134283265,
  134284289, 134283265, 134284289, 134283265, 206292713473, 206292713473, 206292713473, 134283265, 206292713475,
  206225670147, 206225670147, 134283265, 134283265, 135332865, 206292713475, 206292713475, 206292713475, 206292713475,
  207367503875, 207367503875, 206292713475, 206292713475, 207367503875, 1, 65537, 65537, 65539, 134285315, 135334915,
  134283267, 135332867, 134283267, 134285315, 207299411971, 206292713475, 206292713475, 207299411971, 134283267,
  134283265, 134283265, 134283267, 134283267, 134283267, 134283265, 134283265, 134283267, 134283265, 134283267,
  206292713475, 206292713473, 206292713473, 206292713475, 67587, 65539, 65539, 67587, 134284291, 136383491, 134283267,
  136382467, 134283267, 134284291, 134283265, 134283265, 134283265, 134283265, 134283265, 134283265, 134283265,
  206292713473, 206292713473, 206292713473, 206292713473, 206292713473, 206292713473, 206292713473, 134283265,
  136382465, 134283265, 206292713473, 208442294273, 206292713473, 206292713473, 206292713473, 208442294273,
  208442294273, 206292713473, 206292713473, 134283267, 134283267, 134283267, 134283267, 206292713475, 208373153795,
  206292713475, 208373153795, 136380417, 134283265, 134283265, 136380417, 206293762049, 208443342849, 206292713473,
  208442294273, 206292713473, 206293762049, 206292713473, 206292713473, 206292713473, 206292713473, 281681269424129,
  283811640311809, 281681269424129, 283811640311809, 66561, 65537, 65537, 66561, 135331841, 134283265, 134283265,
  135331841, 134285315, 134283267, 134283267, 134285315, 206292713475, 206292713475, 206292713475, 206292713475,
  206292713475, 206292713475, 206292713475, 206294810627, 207369601027, 206292713475, 207367503875, 206292713475,
  206294810627, 282780714008579, 281681269424131, 281681269424131, 282780714008579, 134283265, 134283265, 134283267,
  134283265, 134283265, 136382465, 134283265, 134283267, 136382465, 136382467, 134283265, 134283267, 65539, 65539,
  65539, 134283267, 134283267, 134283267, 134283267, 134283267, 134283267, 206292713475, 206292713475, 208442294275,
  206292713475, 206292713475, 208442294275, 208442294275, 206292713475, 206292713475, 206292713475, 206292713475,
  206292713475, 206292713475, 206292713475, 207367503875, 206292713475, 206292713475, 207367503875, 207367503875,
  206292713475, 206292713475, 134283267, 134283267, 134283267, 134283267, 134283267, 135332867, 134283267, 134283267,
  135332867, 135332867, 134283267, 134283267, 65537, 134283267, 134283265, 134283267, 65537, 134283265, 134283265,
  134283265, 134284289, 134283265, 134283265, 134284289, 134283265, 206292713473, 206292713473, 206292713473,
  134283265, 206225670147, 206292713475, 206225670147, 134283265, 135332865, 134283265, 206292713475, 207367503875,
  206292713475, 206292713475, 206292713475, 207367503875, 207367503875, 206292713475, 206292713475, 134283265,
  134283265, 1, 1, 65537, 66561, 134283267, 134283267, 134283267, 134283267, 134283267, 134283267, 65537, 65539,
  65537, 134283265, 134283267, 134283265, 134283267, 134283267, 134283267, 134283267, 134283267, 134283267, 65537,
  65539, 65537, 134283265, 134283267, 134283265, 134283267, 134283267, 134283267, 134283267, 134283267, 134283267,
  65537, 65539, 65537, 134283265, 134283267, 134283265, 134283267, 134283267, 134283267, 134283267, 134283267,
  134283267, 65537, 65539, 65537, 134283265, 134283267, 134283265, 134283265, 134283267, 134283267, 134283267,
  134283267, 136382467, 136382467, 134283265, 134283267, 134283267, 134283267, 134285315, 134283267, 134285315, 65539,
  65539, 134283267, 134283267, 134283265, 134283267, 134283267, 134283267, 134283267, 136382467, 136382467, 134283265,
  134283267, 134283267, 134283267, 134285315, 134283267, 134285315, 65539, 65539, 134283267, 134283267, 134283265,
  134283265, 134283265, 134283265, 134283265, 134283265, 134283265, 135332865, 135332865, 134283265, 134283265,
  134283265, 134283265, 134284289, 134283265, 134284289, 134283265, 134283265, 134283265, 134283265, 134283265,
  134283265, 134283265, 135332865, 135332865, 134283265, 134283265, 134283265, 134283265, 134284289, 134283265,
  134284289, 65537, 65537, 65537, 65537, 65537, 65537, 65537, 65537, 65537, 65537, 134283267, 134283267, 134283267,
  134283267, 134283267, 134283267, 206292713475, 206292713475, 206292713475, 134283267, 134283267, 134283267,
  134283267, 134283267, 134283267, 206292713475, 206292713475, 206292713475, 134283267, 134283267, 134283267,
  134283267, 134283267, 134283267, 206292713475, 206292713475, 206292713475, 134283267, 134283267, 134283267,
  134283267, 134283267, 134283267, 206292713475, 206292713475, 206292713475, 206292713473, 206292713473, 206292713473,
  206292713473, 206292713473, 206292713473, 65537, 206292713475, 206225670147, 206225670147, 65537, 206292713475,
  206225670147, 206225670147, 65537, 67585, 134283265, 134284289, 134283265, 134283265, 206292713473, 208373153793,
  134283265, 134285313, 206292713473, 207299411969, 134283265, 134283265, 1, 65537, 66561, 134283267, 134283267,
  134283267, 134283267, 134283267, 134283267, 65537, 65537, 65539, 134283265, 134283265, 134283267, 134283267, 65539,
  134283267, 134283267, 65539, 134283267, 134283267, 134283267, 134283267, 134283267, 134283267, 134283267, 65537,
  65539, 65537, 134283265, 134283267, 134283265, 134283265, 134283267, 134283267, 136382467, 134283267, 134283265,
  134283267, 134285315, 134283267, 134283267, 134285315, 65539, 134283267, 134283265, 134283267, 136382467, 134283267,
  134283265, 134283267, 134283267, 134283267, 134285315, 134283267, 134285315, 65539, 134283267, 134283265, 134283265,
  134283265, 134283265, 135332865, 134283265, 134283265, 134283265, 134284289, 134283265, 134283265, 134284289,
  134283265, 134283265, 134283265, 135332865, 134283265, 134283265, 134283265, 134283265, 134283265, 134284289,
  134283265, 134284289, 65537, 65537, 65537, 65537, 65537, 65537, 134283267, 134283267, 134283267, 134283267,
  134283267, 134283267, 206292713475, 206292713475, 206292713475, 134283267, 206292713475, 134283267, 206292713475,
  134283267, 134283267, 134283267, 134283267, 134283267, 134283267, 206292713475, 206292713475, 206292713475,
  206292713473, 206292713473, 206292713473, 206292713473, 206292713473, 206292713473, 65537, 206225670147,
  206292713475, 206225670147, 65537, 206292713475, 206225670147, 206225670147, 65537, 67585, 134283265, 136382465,
  134284289, 136383489, 134283265, 134283265, 206292713473, 208373153793, 134283265, 135332865, 134285313, 135334913,
  206292713473, 207299411969, 134283265, 134283265, 1, 65537, 66561, 134283267, 65539, 134283267, 134283267,
  134283267, 134283267, 134283267, 134283267, 134283267, 65537, 65539, 65537, 134283265, 134283267, 134283265,
  134283267, 134283267, 134283267, 134283267, 134283267, 134283267, 65537, 65537, 65539, 134283265, 134283265,
  134283267, 134283267, 65539, 134283267, 134283265, 134283267, 134283267, 136382467, 134283267, 134283265, 134283267,
  134285315, 134283267, 134283267, 134285315, 65539, 134283267, 134283265, 134283267, 136382467, 134283267, 134283265,
  134283267, 134283267, 134283267, 134285315, 134283267, 134285315, 65539, 134283267, 134283265, 134283265, 134283265,
  135332865, 134283265, 134283265, 134283265, 134283265, 134283265, 134284289, 134283265, 134284289, 134283265,
  134283265, 134283265, 134283265, 135332865, 134283265, 134283265, 134283265, 134284289, 134283265, 134283265,
  134284289, 65537, 65537, 65537, 65537, 65537, 65537, 134283267, 206292713475, 134283267, 134283267, 134283267,
  134283267, 134283267, 134283267, 206292713475, 206292713475, 206292713475, 134283267, 134283267, 134283267,
  134283267, 134283267, 134283267, 206292713475, 206292713475, 206292713475, 134283267, 206292713475, 206292713473,
  206292713473, 206292713473, 206292713473, 206292713473, 206292713473, 65537, 206225670147, 206292713475,
  206225670147, 65537, 206292713475, 206225670147, 206225670147, 67585, 65537, 134284289, 136383489, 134283265,
  136382465, 134283265, 134283265, 206292713473, 208373153793, 134283265, 135332865, 134285313, 135334913,
  206292713473, 207299411969, 1, 134283265, 134283265, 65537, 134283265, 65537, 134283265, 206292713473, 206292713473,
  134283265, 65537, 65537, 134283265, 134283265, 134283265, 134283265, 65537, 134283265, 134283265, 134283265, 65537,
  134283265, 134283265, 134283265, 134283265, 134283265, 134283265, 206292713473, 206292713473, 206292713473, 65537,
  134283265, 134283265, 134283265, 206292713473, 206292713473, 65537, 134283265, 65537, 65537, 134283265, 134283265,
  134283265, 134283265, 65537, 134283265, 134283265, 134283265, 65537, 134283265, 134283265, 65537, 134283265, 65537,
  134283265, 134283265, 134283265, 134283265, 134283265, 134283265, 206292713473, 206292713473, 206292713473, 67585,
  136380417, 136380417, 208440197121, 67585, 136380417, 136380417, 136380417, 136380417, 136380417, 136380417,
  208440197121, 208440197121, 208440197121, 136380417, 67585, 136380417, 136380417, 136380417, 136380417, 136380417,
  136380417, 208440197121, 208440197121, 208440197121, 134283265, 134283265, 65537, 134283265, 67589, 134283269,
  134284293, 134283269, 206292713477, 65537, 134283265, 134283265, 134283265, 206292713473, 134283265, 134283265,
  134283265, 134283265, 134283265, 206292713473, 134283265, 134283265, 134283265, 206292713473, 134283265, 134283265,
  134283265, 134283265, 134283265, 206292713473, 134283265, 134283265, 134283265, 134283265, 134283265, 1, 66561,
  65537, 134283267, 65539, 134283267, 134283267, 134283267, 134283267, 134283267, 134283267, 134283267, 65537, 65537,
  65539, 134283265, 134283265, 134283267, 134283267, 134283267, 134283267, 134283267, 134283267, 134283267, 65537,
  65539, 65537, 134283265, 134283267, 134283265, 134283267, 65539, 134283267, 134283265, 134283267, 136382467,
  134283267, 134283265, 134283267, 134283267, 134283267, 134285315, 134283267, 134285315, 65539, 134283267, 134283265,
  134283267, 134283267, 136382467, 134283267, 134283265, 134283267, 134285315, 134283267, 134283267, 134285315, 65539,
  134283267, 134283265, 134283265, 134283265, 134283265, 135332865, 134283265, 134283265, 134283265, 134284289,
  134283265, 134283265, 134284289, 134283265, 134283265, 134283265, 135332865, 134283265, 134283265, 134283265,
  134283265, 134283265, 134284289, 134283265, 134284289, 65537, 65537, 65537, 65537, 65537, 65537, 134283267,
  206292713475, 134283267, 134283267, 134283267, 134283267, 134283267, 134283267, 206292713475, 206292713475,
  206292713475, 134283267, 134283267, 134283267, 134283267, 134283267, 134283267, 206292713475, 206292713475,
  206292713475, 134283267, 206292713475, 206292713473, 206292713473, 206292713473, 206292713473, 206292713473,
  206292713473, 65537, 206292713475, 206225670147, 206225670147, 65537, 206225670147, 206292713475, 206225670147,
  65537, 67585, 134283265, 136382465, 134284289, 136383489, 134283265, 134283265, 206292713473, 208373153793,
  134285313, 135334913, 134283265, 135332865, 207299411969, 206292713473, 5, 134283265, 134283265, 65537, 134283265,
  65541, 134283265, 206292713473, 206292713473, 134283265, 65537, 65537, 134283265, 134283265, 134283265, 134283265,
  65537, 134283265, 134283265, 134283265, 66561, 135331841, 135331841, 135331841, 135331841, 135331841, 135331841,
  207366455297, 207366455297, 207366455297, 65537, 134283265, 134283265, 134283265, 206292713473, 206292713473, 65541,
  134283265, 65537, 65537, 134283265, 134283265, 134283265, 134283265, 65537, 134283265, 134283265, 134283265, 65537,
  134283265, 134283265, 65537, 134283265, 66561, 135331841, 135331841, 135331841, 135331841, 135331841, 135331841,
  207366455297, 207366455297, 207366455297, 66565, 134283269, 134285317, 207299411973, 65537, 134283265, 134283265,
  134283265, 134283265, 134283265, 134283265, 206292713473, 206292713473, 206292713473, 134283269, 65537, 134283265,
  134283265, 134283265, 134283265, 134283265, 134283265, 206292713473, 206292713473, 206292713473, 134283265,
  134283265, 65537, 134283265, 66561, 135331841, 135331841, 135331841, 207366455297, 65537, 134283265, 134283265,
  134283265, 206292713473, 134283269, 134283269, 134283269, 134283265, 134283265, 206292713473, 134283269, 134283269,
  134283269, 206292713473, 134283265, 134283265, 134283265, 134283265, 134283265, 206292713473, 134283265, 134283265,
  134283265, 134283265, 134283265, 1, 66561, 65537, 134283267, 134283267, 134283267, 134283267, 134283267, 134283267,
  65537, 65539, 65537, 134283265, 134283267, 134283265, 134283267, 65539, 134283267, 134283267, 65539, 134283267,
  134283267, 134283267, 134283267, 134283267, 134283267, 134283267, 65537, 65537, 65539, 134283265, 134283265,
  134283267, 134283265, 134283267, 136382467, 134283267, 134283265, 134283267, 134283267, 134283267, 134285315,
  134283267, 134285315, 65539, 134283267, 134283265, 134283267, 134283267, 136382467, 134283267, 134283265, 134283267,
  134285315, 134283267, 134283267, 134285315, 65539, 134283267, 134283265, 134283265, 134283265, 135332865, 134283265,
  134283265, 134283265, 134283265, 134283265, 134284289, 134283265, 134284289, 134283265, 134283265, 134283265,
  134283265, 135332865, 134283265, 134283265, 134283265, 134284289, 134283265, 134283265, 134284289, 65537, 65537,
  65537, 65537, 65537, 65537, 134283267, 134283267, 134283267, 134283267, 134283267, 134283267, 206292713475,
  206292713475, 206292713475, 134283267, 206292713475, 134283267, 206292713475, 134283267, 134283267, 134283267,
  134283267, 134283267, 134283267, 206292713475, 206292713475, 206292713475, 206292713473, 206292713473, 206292713473,
  206292713473, 206292713473, 206292713473, 65537, 206292713475, 206225670147, 206225670147, 65537, 206225670147,
  206292713475, 206225670147, 67585, 65537, 134284289, 136383489, 134283265, 136382465, 134283265, 134283265,
  206292713473, 208373153793, 134285313, 135334913, 134283265, 135332865, 207299411969, 206292713473, 5, 134283265,
  134283265, 65537, 134283265, 65541, 134283265, 206292713473, 206292713473, 134283265, 65537, 65537, 134283265,
  134283265, 134283265, 134283265, 65537, 134283265, 134283265, 134283265, 66561, 135331841, 135331841, 135331841,
  135331841, 135331841, 135331841, 207366455297, 207366455297, 207366455297, 65537, 134283265, 134283265, 134283265,
  206292713473, 206292713473, 65541, 134283265, 65537, 65537, 134283265, 134283265, 134283265, 134283265, 65537,
  134283265, 134283265, 134283265, 65537, 134283265, 134283265, 65537, 134283265, 66561, 135331841, 135331841,
  135331841, 135331841, 135331841, 135331841, 207366455297, 207366455297, 207366455297, 68613, 136380421, 136382469,
  209446895621, 67585, 136380417, 136380417, 136380417, 136380417, 136380417, 136380417, 208440197121, 208440197121,
  208440197121, 136380421, 67585, 136380417, 136380417, 136380417, 136380417, 136380417, 136380417, 208440197121,
  208440197121, 208440197121, 134283265, 134283265, 65537, 134283265, 68613, 135331845, 135332869, 135331845,
  207366455301, 65537, 134283265, 134283265, 134283265, 206292713473, 134283269, 134283269, 134283269, 134283265,
  134283265, 206292713473, 134283269, 134283269, 134283269, 206292713473, 134283265, 134283265, 134283265, 134283265,
  134283265, 206292713473, 134283265, 134283265, 134283265, 134283265, 134283265, 1, 1, 65537, 66561, 134283267,
  134283267, 134283267, 134283267, 134283267, 134283267, 65537, 65537, 65539, 134283265, 134283265, 134283267,
  134283267, 134283267, 134283267, 134283267, 134283267, 134283267, 65537, 65537, 65539, 134283265, 134283265,
  134283267, 134283267, 134283267, 134283267, 134283267, 134283267, 134283267, 65537, 65537, 65539, 134283265,
  134283265, 134283267, 134283267, 134283267, 134283267, 134283267, 134283267, 134283267, 65537, 65537, 65539,
  134283265, 134283265, 134283267, 134283265, 134283267, 134283267, 136382467, 136382467, 134283267, 134283267,
  134283267, 134283265, 134283267, 134285315, 134283267, 134283267, 134285315, 65539, 65539, 134283267, 134283267,
  134283265, 134283267, 134283267, 136382467, 136382467, 134283267, 134283267, 134283267, 134283265, 134283267,
  134285315, 134283267, 134283267, 134285315, 65539, 65539, 134283267, 134283267, 134283265, 134283265, 134283265,
  134283265, 134283265, 135332865, 135332865, 134283265, 134283265, 134283265, 134283265, 134283265, 134284289,
  134283265, 134283265, 134284289, 134283265, 134283265, 134283265, 134283265, 134283265, 135332865, 135332865,
  134283265, 134283265, 134283265, 134283265, 134283265, 134284289, 134283265, 134283265, 134284289, 65537, 65537,
  65537, 65537, 65537, 65537, 65537, 65537, 65537, 65537, 134283267, 134283267, 134283267, 134283267, 134283267,
  134283267, 206292713475, 206292713475, 206292713475, 134283267, 134283267, 134283267, 134283267, 134283267,
  134283267, 206292713475, 206292713475, 206292713475, 134283267, 134283267, 134283267, 134283267, 134283267,
  134283267, 206292713475, 206292713475, 206292713475, 134283267, 134283267, 134283267, 134283267, 134283267,
  134283267, 206292713475, 206292713475, 206292713475, 206292713473, 206292713473, 206292713473, 206292713473,
  206292713473, 206292713473, 65537, 206225670147, 206292713475, 206225670147, 65537, 206225670147, 206292713475,
  206225670147, 65537, 67585, 134283265, 134284289, 134283265, 134283265, 206292713473, 208373153793, 134283265,
  134285313, 206292713473, 207299411969]

end Ebcc.Hints
