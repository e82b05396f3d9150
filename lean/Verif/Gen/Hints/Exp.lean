/-!
Hints for claims of `tools/expcoeff.py`.
-/

set_option maxRecDepth 100000

namespace Ebcc.Hints

def GecCC_c1_to_t1 : List Nat := [
  1, 1]

def GecCC_t1_to_c1 : List Nat := [
  1, 1]

def GecCC_c2_to_t2 : List Nat := [
  1, 65537, 65537, 1, 65537, 65537, 1]

def GecCC_t2_to_c2 : List Nat := [
  1, 1, 65537, 65537, 1, 65537, 65537]

def GecCC_c3_to_t3 : List Nat := [
  1, 65, 65, 65, 65, 65, 65, 65537, 134283265, 134283265, 65537, 134283265, 134283265, 65537, 134283265, 134283265, 1,
  1, 65537, 65537, 65, 65537, 65, 65, 65537, 65537, 68609, 67239937, 67239937, 3137, 134217793, 134217793, 68609,
  67108993, 67108993, 1]

def GecCC_t3_to_c3 : List Nat := [
  1, 1, 1, 65, 65, 65537, 65, 65, 65, 65537, 65537, 68609, 67239937, 67239937, 68609, 67239937, 67239937, 68609,
  67239937, 67239937, 1, 65, 65, 65, 65, 65, 65, 65537, 134283265, 134283265, 65537, 134283265, 134283265, 65537,
  134283265, 134283265]

def GecCC_c4_to_t4 : List Nat := [
  1, 65, 65, 65, 65, 65, 65, 65, 65, 65537, 131137, 131137, 65537, 131137, 131137, 65537, 131137, 131137, 65537,
  131137, 131137, 65537, 131137, 131137, 65537, 131137, 131137, 65, 65, 65, 65, 65537, 131137, 131137, 65537, 131137,
  131137, 65537, 131137, 131137, 65537, 131137, 131137, 65537, 131137, 131137, 65537, 131137, 131137, 65537, 131137,
  131137, 65537, 131137, 131137, 65537, 131137, 131137, 65537, 131137, 131137, 65537, 131137, 131137, 65537, 131137,
  131137, 65537, 67239937, 67239937, 67239937, 67239937, 67239937, 67239937, 134283265, 206292713473, 206292713473,
  134283265, 206292713473, 206292713473, 134283265, 206292713473, 206292713473, 65537, 67239937, 67239937, 67239937,
  67239937, 67239937, 67239937, 134283265, 206292713473, 206292713473, 134283265, 206292713473, 206292713473,
  134283265, 206292713473, 206292713473, 65537, 67239937, 67239937, 67239937, 67239937, 67239937, 67239937, 134283265,
  206292713473, 206292713473, 134283265, 206292713473, 206292713473, 134283265, 206292713473, 206292713473, 65537,
  67239937, 67239937, 67239937, 67239937, 67239937, 67239937, 134283265, 206292713473, 206292713473, 134283265,
  206292713473, 206292713473, 134283265, 206292713473, 206292713473, 1, 1, 1, 65, 65, 65, 65, 65, 65, 65, 65, 65537,
  65537, 65537, 65537, 65537, 65537, 65, 65, 65, 65, 65537, 65537, 65, 65, 65, 65, 65537, 65, 65, 65, 65537, 65537,
  68609, 67239937, 67239937, 68609, 67239937, 67239937, 68609, 67239937, 67239937, 21569, 69206145, 70254721,
  70254721, 69206145, 70254721, 70254721, 67108993, 134283457, 134283457, 68157569, 134283457, 134283457, 68157569,
  134283457, 134283457, 21569, 69206145, 70254721, 70254721, 69206145, 70254721, 70254721, 67108993, 134283457,
  134283457, 68157569, 134283457, 134283457, 68157569, 134283457, 134283457, 21569, 69206145, 70254721, 70254721,
  69206145, 70254721, 70254721, 67108993, 134283457, 134283457, 68157569, 134283457, 134283457, 68157569, 134283457,
  134283457, 87041, 136380417, 137428993, 137428993, 136380417, 137428993, 137428993, 134283265, 68920934401,
  68920934401, 135331841, 68920934401, 68920934401, 135331841, 68920934401, 68920934401, 65537, 65537, 65537, 65, 65,
  65, 87041, 134283265, 135331841, 135331841, 136380417, 137428993, 137428993, 87041, 134283265, 135331841, 135331841,
  136380417, 137428993, 137428993, 87041, 134283265, 135331841, 135331841, 136380417, 137428993, 137428993, 21569,
  67108993, 68157569, 68157569, 69206145, 70254721, 70254721, 65537, 65537, 65537, 21569, 67108993, 68157569,
  68157569, 87041, 134283265, 135331841, 135331841, 87041, 134283265, 135331841, 135331841, 21569, 67108993, 68157569,
  68157569, 1]

def GecCC_t4_to_c4 : List Nat := [
  1, 1, 1, 1, 65, 65, 65, 65, 65, 65, 65, 65, 65537, 65537, 65537, 65537, 65537, 65537, 65, 65, 65, 65, 65537, 65537,
  65, 65, 65, 65, 65537, 65, 65, 65, 65537, 65537, 68609, 67239937, 67239937, 68609, 67239937, 67239937, 68609,
  67239937, 67239937, 21569, 69206145, 70254721, 70254721, 69206145, 70254721, 70254721, 67108993, 134283457,
  134283457, 68157569, 134283457, 134283457, 68157569, 134283457, 134283457, 87041, 136380417, 137428993, 137428993,
  136380417, 137428993, 137428993, 134283265, 68920934401, 68920934401, 135331841, 68920934401, 68920934401,
  135331841, 68920934401, 68920934401, 21569, 69206145, 70254721, 70254721, 69206145, 70254721, 70254721, 67108993,
  134283457, 134283457, 68157569, 134283457, 134283457, 68157569, 134283457, 134283457, 21569, 69206145, 70254721,
  70254721, 69206145, 70254721, 70254721, 67108993, 134283457, 134283457, 68157569, 134283457, 134283457, 68157569,
  134283457, 134283457, 65537, 65537, 65537, 65, 65, 65, 87041, 134283265, 135331841, 135331841, 136380417, 137428993,
  137428993, 21569, 67108993, 68157569, 68157569, 69206145, 70254721, 70254721, 87041, 134283265, 135331841,
  135331841, 136380417, 137428993, 137428993, 87041, 134283265, 135331841, 135331841, 136380417, 137428993, 137428993,
  65537, 65537, 65537, 87041, 134283265, 135331841, 135331841, 21569, 67108993, 68157569, 68157569, 21569, 67108993,
  68157569, 68157569, 87041, 134283265, 135331841, 135331841, 1, 65, 65, 65, 65, 65, 65, 65, 65, 65537, 131137,
  131137, 65537, 131137, 131137, 65537, 131137, 131137, 65537, 131137, 131137, 65537, 131137, 131137, 65537, 131137,
  131137, 65, 65, 65, 65, 65537, 131137, 131137, 65537, 131137, 131137, 65537, 131137, 131137, 65537, 131137, 131137,
  65537, 131137, 131137, 65537, 131137, 131137, 65537, 131137, 131137, 65537, 131137, 131137, 65537, 131137, 131137,
  65537, 131137, 131137, 65537, 131137, 131137, 65537, 131137, 131137, 65537, 67239937, 67239937, 67239937, 67239937,
  67239937, 67239937, 134283265, 206292713473, 206292713473, 134283265, 206292713473, 206292713473, 134283265,
  206292713473, 206292713473, 65537, 67239937, 67239937, 67239937, 67239937, 67239937, 67239937, 134283265,
  206292713473, 206292713473, 134283265, 206292713473, 206292713473, 134283265, 206292713473, 206292713473, 65537,
  67239937, 67239937, 67239937, 67239937, 67239937, 67239937, 134283265, 206292713473, 206292713473, 134283265,
  206292713473, 206292713473, 134283265, 206292713473, 206292713473, 65537, 67239937, 67239937, 67239937, 67239937,
  67239937, 67239937, 134283265, 206292713473, 206292713473, 134283265, 206292713473, 206292713473, 134283265,
  206292713473, 206292713473]

def UecCC_c1_to_t1 : List Nat := [
  1, 1, 1, 1]

def UecCC_t1_to_c1 : List Nat := [
  1, 1, 1, 1]

def UecCC_c2_to_t2 : List Nat := [
  1, 65537, 65537, 1, 1, 65537, 1, 1, 65537, 65537, 65, 65, 65, 65, 65, 1, 1, 1]

def UecCC_t2_to_c2 : List Nat := [
  1, 1, 1, 1, 1, 65, 65, 65, 65, 65, 1, 65537, 65537, 1, 65537, 1, 65537, 65537]

def UecCC_c3_to_t3 : List Nat := [
  1, 65, 65, 65, 65, 65, 65, 65537, 134283265, 134283265, 65537, 134283265, 134283265, 65537, 134283265, 134283265, 1,
  1, 1, 65, 65, 65, 65537, 134283265, 65537, 134283265, 1, 1, 1, 65, 65, 65, 65, 65, 65, 65537, 134283265, 134283265,
  65537, 134283265, 134283265, 65537, 134283265, 134283265, 1, 1, 65, 65, 65, 65537, 134283265, 65537, 134283265, 65,
  65, 65, 65537, 65537, 65537, 65, 65537, 65, 134217793, 131137, 67108993, 65665, 67239937, 134217793, 68609, 2113,
  65537, 1089, 65537, 65665, 67108993, 65, 65, 65537, 65537, 65, 65537, 65, 65537, 65, 67108993, 67108993, 134217793,
  67108993, 134217793, 67108993, 65, 1089, 65, 67585, 68609, 131137, 131137, 1, 1, 1, 1]

def UecCC_t3_to_c3 : List Nat := [
  1, 1, 1, 1, 1, 1, 1, 1, 1, 65, 65537, 65537, 65537, 65, 65, 65, 65537, 65, 134217793, 65665, 67239937, 67108993,
  131137, 134217793, 1089, 65537, 68609, 65537, 2113, 67108993, 65665, 65, 65537, 65537, 65, 65, 65, 65, 65537, 65537,
  67108993, 67108993, 134217793, 134217793, 67108993, 67108993, 67585, 65, 65, 68609, 1089, 131137, 131137, 1, 65, 65,
  65, 65, 65, 65, 65537, 134283265, 134283265, 65537, 134283265, 134283265, 65537, 134283265, 134283265, 1, 65, 65,
  65, 65537, 134283265, 65537, 134283265, 1, 65, 65, 65, 65, 65, 65, 65537, 134283265, 134283265, 65537, 134283265,
  134283265, 65537, 134283265, 134283265, 1, 65, 65, 65, 65537, 134283265, 65537, 134283265]

def UecCC_c4_to_t4 : List Nat := [
  1, 65, 65, 65, 65, 65, 65, 65, 65, 65537, 131137, 131137, 65537, 131137, 131137, 65537, 131137, 131137, 65537,
  131137, 131137, 65537, 131137, 131137, 65537, 131137, 131137, 65, 65, 65, 65, 65537, 131137, 131137, 65537, 131137,
  131137, 65537, 131137, 131137, 65537, 131137, 131137, 65537, 131137, 131137, 65537, 131137, 131137, 65537, 131137,
  131137, 65537, 131137, 131137, 65537, 131137, 131137, 65537, 131137, 131137, 65537, 131137, 131137, 65537, 131137,
  131137, 65537, 67239937, 67239937, 67239937, 67239937, 67239937, 67239937, 134283265, 206292713473, 206292713473,
  134283265, 206292713473, 206292713473, 134283265, 206292713473, 206292713473, 65537, 67239937, 67239937, 67239937,
  67239937, 67239937, 67239937, 134283265, 206292713473, 206292713473, 134283265, 206292713473, 206292713473,
  134283265, 206292713473, 206292713473, 65537, 67239937, 67239937, 67239937, 67239937, 67239937, 67239937, 134283265,
  206292713473, 206292713473, 134283265, 206292713473, 206292713473, 134283265, 206292713473, 206292713473, 65537,
  67239937, 67239937, 67239937, 67239937, 67239937, 67239937, 134283265, 206292713473, 206292713473, 134283265,
  206292713473, 206292713473, 134283265, 206292713473, 206292713473, 1, 1, 1, 1, 65, 65, 65, 65, 65537, 131137, 65537,
  131137, 65537, 131137, 65, 65, 65, 65537, 131137, 65537, 131137, 65537, 131137, 65537, 131137, 131137, 65537,
  131137, 131137, 65537, 131137, 131137, 65537, 67239937, 67239937, 67239937, 134283265, 206292713473, 134283265,
  206292713473, 65537, 67239937, 67239937, 67239937, 134283265, 206292713473, 134283265, 206292713473, 65537,
  67239937, 67239937, 67239937, 134283265, 206292713473, 134283265, 206292713473, 1, 1, 1, 1, 65, 65, 65, 65, 65, 65,
  65, 65, 65537, 131137, 131137, 65537, 131137, 131137, 65537, 131137, 131137, 65537, 131137, 131137, 65537, 131137,
  131137, 65537, 131137, 131137, 65, 65, 65, 65, 65537, 131137, 131137, 65537, 131137, 131137, 65537, 131137, 131137,
  65537, 131137, 131137, 65537, 131137, 131137, 65537, 131137, 131137, 65537, 131137, 131137, 65537, 131137, 131137,
  65537, 131137, 131137, 65537, 131137, 131137, 65537, 131137, 131137, 65537, 131137, 131137, 65537, 67239937,
  67239937, 67239937, 67239937, 67239937, 67239937, 134283265, 206292713473, 206292713473, 134283265, 206292713473,
  206292713473, 134283265, 206292713473, 206292713473, 65537, 67239937, 67239937, 67239937, 67239937, 67239937,
  67239937, 134283265, 206292713473, 206292713473, 134283265, 206292713473, 206292713473, 134283265, 206292713473,
  206292713473, 65537, 67239937, 67239937, 67239937, 67239937, 67239937, 67239937, 134283265, 206292713473,
  206292713473, 134283265, 206292713473, 206292713473, 134283265, 206292713473, 206292713473, 65537, 67239937,
  67239937, 67239937, 67239937, 67239937, 67239937, 134283265, 206292713473, 206292713473, 134283265, 206292713473,
  206292713473, 134283265, 206292713473, 206292713473, 1, 1, 1, 65, 65, 65, 65, 65537, 131137, 65537, 131137, 65537,
  131137, 65537, 131137, 65, 65, 65537, 131137, 131137, 65537, 131137, 65537, 131137, 65537, 131137, 65537, 131137,
  65537, 67239937, 67239937, 67239937, 134283265, 206292713473, 134283265, 206292713473, 65537, 67239937, 67239937,
  67239937, 134283265, 206292713473, 134283265, 206292713473, 1, 1, 65, 65, 65, 65, 65, 65, 65537, 131137, 131137,
  65537, 131137, 131137, 65537, 131137, 131137, 65, 65, 65, 65537, 131137, 131137, 65537, 131137, 131137, 65537,
  131137, 131137, 65537, 131137, 131137, 65537, 131137, 131137, 65537, 131137, 131137, 65537, 67239937, 67239937,
  67239937, 67239937, 67239937, 67239937, 134283265, 206292713473, 206292713473, 134283265, 206292713473,
  206292713473, 134283265, 206292713473, 206292713473, 3, 65537, 65537, 66561, 66561, 65537, 65537, 66561, 66561,
  66561, 134283265, 134283265, 65537, 134283265, 134283265, 65537, 134283265, 134283265, 65537, 134283265, 134283265,
  65537, 134283265, 134283265, 65538, 135331841, 135331841, 65537, 65537, 66561, 66561, 66561, 134283265, 134283265,
  65537, 134283265, 134283265, 65537, 134283265, 134283265, 65537, 134283265, 134283265, 65537, 134283265, 134283265,
  65538, 135331841, 135331841, 66561, 134283265, 134283265, 65537, 134283265, 134283265, 65537, 134283265, 134283265,
  65537, 134283265, 134283265, 65537, 134283265, 134283265, 65538, 135331841, 135331841, 66561, 134283265, 134283265,
  135331841, 134283265, 134283265, 135331841, 135331841, 206292713473, 206292713473, 134283265, 206292713473,
  206292713473, 134283265, 206292713473, 206292713473, 66561, 134283265, 134283265, 135331841, 134283265, 134283265,
  135331841, 135331841, 206292713473, 206292713473, 134283265, 206292713473, 206292713473, 134283265, 206292713473,
  206292713473, 65537, 134283265, 134283265, 134283265, 134283265, 134283265, 134283265, 134283265, 206292713473,
  206292713473, 134283265, 206292713473, 206292713473, 134283265, 206292713473, 206292713473, 65537, 134283265,
  134283265, 134283265, 134283265, 134283265, 134283265, 134283265, 206292713473, 206292713473, 134283265,
  206292713473, 206292713473, 134283265, 206292713473, 206292713473, 3, 65537, 65537, 66561, 66561, 65537, 65537,
  66561, 66561, 66561, 134283265, 134283265, 65537, 134283265, 134283265, 65537, 134283265, 134283265, 65537,
  134283265, 134283265, 65537, 134283265, 134283265, 65538, 135331841, 135331841, 65537, 65537, 66561, 66561, 66561,
  134283265, 134283265, 65537, 134283265, 134283265, 65537, 134283265, 134283265, 65537, 134283265, 134283265, 65537,
  134283265, 134283265, 65538, 135331841, 135331841, 66561, 134283265, 134283265, 65537, 134283265, 134283265, 65537,
  134283265, 134283265, 65537, 134283265, 134283265, 65537, 134283265, 134283265, 65538, 135331841, 135331841, 66561,
  134283265, 134283265, 135331841, 134283265, 134283265, 135331841, 135331841, 206292713473, 206292713473, 134283265,
  206292713473, 206292713473, 134283265, 206292713473, 206292713473, 66561, 134283265, 134283265, 135331841,
  134283265, 134283265, 135331841, 135331841, 206292713473, 206292713473, 134283265, 206292713473, 206292713473,
  134283265, 206292713473, 206292713473, 65537, 134283265, 134283265, 134283265, 134283265, 134283265, 134283265,
  134283265, 206292713473, 206292713473, 134283265, 206292713473, 206292713473, 134283265, 206292713473, 206292713473,
  65537, 134283265, 134283265, 134283265, 134283265, 134283265, 134283265, 134283265, 206292713473, 206292713473,
  134283265, 206292713473, 206292713473, 134283265, 206292713473, 206292713473, 65, 65, 65, 65, 65, 65, 65, 65, 65,
  65, 65537, 65537, 65, 65, 65537, 65537, 65, 65, 65537, 65537, 65, 65, 65, 65, 65, 65, 65, 65, 65537, 65537, 65537,
  65537, 65, 65537, 65, 65537, 65, 65537, 65, 65, 65, 65, 65, 65537, 65537, 65, 65, 65, 65537, 65, 67108993,
  134283265, 134217793, 131137, 131137, 67239937, 131137, 65665, 131137, 65665, 65665, 67108993, 65665, 65665, 65665,
  67108993, 67108993, 65665, 134283265, 67108993, 134217793, 131137, 134283265, 134283265, 65665, 131137, 131137,
  65665, 67108993, 65665, 65665, 65665, 65665, 67108993, 65665, 67108993, 134217793, 131137, 134217793, 131137, 65665,
  131137, 67239937, 67239937, 67239937, 134283265, 134283265, 67239937, 131137, 65665, 65665, 65665, 131137, 131137,
  67239937, 67239937, 67239937, 134283265, 67239937, 134283265, 65665, 65665, 65665, 67108993, 134217793, 131137,
  67108993, 67108993, 67108993, 67108993, 131137, 134217793, 137640280129, 68920803457, 206158561345, 137640345601,
  68920803457, 206292648001, 134283457, 67240129, 137439019201, 67240129, 68853694657, 68853694657, 206225670145,
  206225670145, 137640280129, 68920803457, 137640280129, 206292648001, 67240129, 134283457, 68853694657, 68853694657,
  137439019201, 67240129, 72705, 72705, 7233, 7233, 72705, 72705, 75777, 75777, 75777, 75777, 75777, 75777, 10305,
  10305, 10305, 10305, 75777, 75777, 65537, 65537, 65537, 65537, 65, 65, 65537, 65, 65, 65, 65537, 134217793, 131137,
  131137, 67239937, 65665, 65665, 65665, 65665, 65665, 67108993, 131137, 67108993, 67239937, 131137, 131137, 65665,
  131137, 134217793, 67239937, 134283265, 67239937, 131137, 134217793, 134217793, 65665, 65665, 65665, 68920803457,
  68719673473, 134283457, 68719608001, 137439150145, 137640280129, 3, 65537, 65537, 66561, 66561, 65537, 65537, 66561,
  66561, 66561, 134283265, 134283265, 65537, 134283265, 134283265, 65537, 134283265, 134283265, 65537, 134283265,
  134283265, 65537, 134283265, 134283265, 65538, 135331841, 135331841, 65537, 65537, 66561, 66561, 66561, 134283265,
  134283265, 65537, 134283265, 134283265, 65537, 134283265, 134283265, 65537, 134283265, 134283265, 65537, 134283265,
  134283265, 65538, 135331841, 135331841, 66561, 134283265, 134283265, 65537, 134283265, 134283265, 65537, 134283265,
  134283265, 65537, 134283265, 134283265, 65537, 134283265, 134283265, 65538, 135331841, 135331841, 66561, 134283265,
  134283265, 135331841, 134283265, 134283265, 135331841, 135331841, 206292713473, 206292713473, 134283265,
  206292713473, 206292713473, 134283265, 206292713473, 206292713473, 66561, 134283265, 134283265, 135331841,
  134283265, 134283265, 135331841, 135331841, 206292713473, 206292713473, 134283265, 206292713473, 206292713473,
  134283265, 206292713473, 206292713473, 65537, 134283265, 134283265, 134283265, 134283265, 134283265, 134283265,
  134283265, 206292713473, 206292713473, 134283265, 206292713473, 206292713473, 134283265, 206292713473, 206292713473,
  65537, 134283265, 134283265, 134283265, 134283265, 134283265, 134283265, 134283265, 206292713473, 206292713473,
  134283265, 206292713473, 206292713473, 134283265, 206292713473, 206292713473, 3, 65537, 65537, 66561, 66561, 65537,
  65537, 66561, 66561, 66561, 134283265, 134283265, 65537, 134283265, 134283265, 65537, 134283265, 134283265, 65537,
  134283265, 134283265, 65537, 134283265, 134283265, 65538, 135331841, 135331841, 65537, 65537, 66561, 66561, 66561,
  134283265, 134283265, 65537, 134283265, 134283265, 65537, 134283265, 134283265, 65537, 134283265, 134283265, 65537,
  134283265, 134283265, 65538, 135331841, 135331841, 66561, 134283265, 134283265, 65537, 134283265, 134283265, 65537,
  134283265, 134283265, 65537, 134283265, 134283265, 65537, 134283265, 134283265, 65538, 135331841, 135331841, 66561,
  134283265, 134283265, 135331841, 134283265, 134283265, 135331841, 135331841, 206292713473, 206292713473, 134283265,
  206292713473, 206292713473, 134283265, 206292713473, 206292713473, 66561, 134283265, 134283265, 135331841,
  134283265, 134283265, 135331841, 135331841, 206292713473, 206292713473, 134283265, 206292713473, 206292713473,
  134283265, 206292713473, 206292713473, 65537, 134283265, 134283265, 134283265, 134283265, 134283265, 134283265,
  134283265, 206292713473, 206292713473, 134283265, 206292713473, 206292713473, 134283265, 206292713473, 206292713473,
  65537, 134283265, 134283265, 134283265, 134283265, 134283265, 134283265, 134283265, 206292713473, 206292713473,
  134283265, 206292713473, 206292713473, 134283265, 206292713473, 206292713473, 65, 65, 65537, 65537, 65537, 65537,
  65, 65, 65537, 65537, 65537, 65537, 65537, 65537, 65537, 65537, 65537, 65537, 65537, 65537, 65537, 65537, 65537,
  65537, 65, 65, 65, 65, 65, 65, 65537, 65537, 65537, 65537, 65537, 65537, 65, 65537, 65537, 65537, 65, 65, 65537, 65,
  65537, 65537, 65537, 65537, 65537, 65537, 134217793, 67108993, 67108993, 134217793, 134217793, 134217793, 134217793,
  134283265, 131137, 134217793, 134217793, 67108993, 134217793, 134217793, 134217793, 131137, 134283265, 131137,
  65665, 65665, 134217793, 134217793, 134217793, 134217793, 67239937, 134283265, 131137, 65665, 134217793, 134217793,
  134217793, 134217793, 134217793, 131137, 131137, 67239937, 67239937, 134283265, 131137, 67239937, 67239937,
  134283265, 134283265, 134283265, 131137, 67239937, 67239937, 131137, 67239937, 134283265, 134283265, 67239937,
  67239937, 67239937, 134283265, 134283265, 134283265, 67239937, 67239937, 67239937, 131137, 134283265, 131137,
  131137, 67239937, 131137, 134283265, 67239937, 67239937, 131137, 131137, 67239937, 206225539201, 137640280129,
  206225539201, 137506062529, 206225539201, 137506062529, 137640280129, 137640280129, 206225539201, 206225539201,
  206225539201, 206225539201, 137640280129, 137640280129, 206225539201, 137640280129, 206225539201, 206225539201,
  137640280129, 137640280129, 206225539201, 137640280129, 206225539201, 206225539201, 65, 65, 2113, 2113, 75777,
  75777, 76801, 76801, 12353, 12353, 79873, 79873, 4161, 4161, 70657, 70657, 65, 1089, 65538, 65, 65, 67585, 68609,
  67586, 67585, 65665, 1114241, 67108993, 69206145, 137363521, 65665, 65665, 65665, 69206145, 69206145, 131137,
  67108993, 134217793, 1179713, 67108993, 134217793, 67108993, 68157569, 134283265, 134283265, 68719608001,
  68719608001, 134283457, 134283457, 65, 65, 79873, 79873, 79873, 79873, 14401, 14401, 79873, 79873, 14401, 14401,
  79873, 79873, 79873, 79873, 79873, 79873, 79873, 79873, 65, 65, 65, 65537, 65537, 65537, 65, 65537, 65, 65665,
  65665, 65665, 134217793, 65665, 67108993, 65665, 67108993, 65665, 67108993, 67108993, 65665, 65665, 134217793,
  134217793, 65665, 134217793, 67108993, 134217793, 65665, 134217793, 134283265, 134283265, 134283265, 134283265,
  134283265, 134283265, 206158495873, 68719608001, 206158495873, 68719608001, 206158495873, 68719608001, 1, 1, 1, 1, 1]

def UecCC_t4_to_c4 : List Nat := [
  1, 1, 1, 1, 1, 1, 1, 1, 1, 1, 1, 1, 1, 1, 3, 3, 65, 65, 65, 65, 65, 65, 65537, 65537, 65, 65, 65, 65, 65537, 65537,
  65, 65, 65537, 65537, 65, 65, 65537, 65537, 65, 65, 65, 65, 65, 65, 65537, 65537, 65, 65, 65537, 65537, 65, 65,
  65537, 65, 65, 65, 65, 65, 65537, 65537, 65537, 65, 65, 65, 65, 65, 67108993, 134283265, 67108993, 65665, 67108993,
  65665, 65665, 131137, 67108993, 134283265, 131137, 67239937, 67108993, 65665, 131137, 67239937, 65665, 67239937,
  65665, 131137, 65665, 67239937, 131137, 67239937, 131137, 134217793, 65665, 131137, 65665, 67108993, 134283265,
  134283265, 131137, 134217793, 67239937, 67239937, 65665, 134217793, 67108993, 67108993, 131137, 131137, 65665,
  131137, 67108993, 131137, 131137, 134283265, 65665, 65665, 134217793, 65665, 134283265, 67239937, 67108993, 65665,
  67108993, 65665, 65665, 65665, 134217793, 134283265, 67108993, 65665, 131137, 134283265, 67108993, 67239937, 131137,
  65665, 65665, 134217793, 67240129, 206292648001, 137439019201, 137640280129, 68853694657, 68920803457, 134283457,
  206225670145, 68853694657, 67240129, 206292648001, 137640345601, 68853694657, 137640280129, 67240129, 206225670145,
  68853694657, 137439019201, 68920803457, 206158561345, 67240129, 134283457, 68920803457, 137640280129, 10305, 10305,
  10305, 10305, 75777, 75777, 72705, 72705, 75777, 75777, 7233, 7233, 75777, 75777, 65537, 65537, 75777, 75777, 72705,
  72705, 65, 65537, 65537, 65537, 65, 65537, 65, 65, 65, 65665, 67239937, 65665, 67239937, 131137, 65665, 65665,
  65665, 131137, 65665, 134217793, 131137, 131137, 134217793, 67239937, 131137, 67239937, 131137, 134217793,
  134283265, 67108993, 65665, 65665, 67108993, 131137, 65665, 134217793, 137640280129, 137439150145, 68719608001,
  68719673473, 134283457, 68920803457, 3, 3, 65, 65, 65537, 65537, 65, 65, 65537, 65537, 65537, 65537, 65, 65, 65537,
  65537, 65537, 65537, 65, 65, 65537, 65537, 65537, 65537, 65537, 65537, 65537, 65537, 65537, 65537, 65537, 65537, 65,
  65, 65537, 65, 65, 65537, 65537, 65537, 65537, 65537, 65537, 65537, 65537, 65537, 65537, 65, 65537, 65, 65537,
  65537, 131137, 67239937, 134283265, 67239937, 131137, 134217793, 67239937, 134217793, 131137, 67239937, 131137,
  67239937, 131137, 134217793, 131137, 134217793, 131137, 134283265, 134283265, 67239937, 131137, 134283265, 131137,
  134283265, 67239937, 67239937, 67239937, 134283265, 134217793, 134217793, 65665, 67108993, 134283265, 131137,
  131137, 131137, 65665, 67108993, 134217793, 67108993, 134217793, 134217793, 134283265, 134217793, 67239937,
  67239937, 134283265, 134217793, 131137, 134217793, 67239937, 134283265, 67239937, 134283265, 65665, 134217793,
  134283265, 134217793, 131137, 134217793, 67239937, 67239937, 67239937, 134217793, 131137, 134217793, 67239937,
  134283265, 67239937, 134283265, 134217793, 134217793, 206225539201, 206225539201, 206225539201, 206225539201,
  137640280129, 137640280129, 137640280129, 137640280129, 206225539201, 206225539201, 137506062529, 137506062529,
  206225539201, 206225539201, 137640280129, 137640280129, 206225539201, 206225539201, 206225539201, 206225539201,
  137640280129, 137640280129, 137640280129, 206225539201, 12353, 12353, 4161, 4161, 65, 65, 75777, 75777, 79873,
  79873, 70657, 70657, 2113, 2113, 76801, 76801, 65, 67585, 65, 67585, 65, 65538, 68609, 67586, 1089, 65665,
  134217793, 137363521, 67108993, 131137, 68157569, 1179713, 65665, 134217793, 1114241, 69206145, 67108993, 134283265,
  69206145, 67108993, 65665, 69206145, 134283265, 67108993, 65665, 134283457, 68719608001, 134283457, 68719608001,
  79873, 79873, 79873, 79873, 65, 65, 79873, 79873, 79873, 79873, 14401, 14401, 79873, 79873, 79873, 79873, 79873,
  79873, 14401, 14401, 65, 65537, 65537, 65537, 65, 65, 65, 65537, 65, 134283265, 65665, 65665, 67108993, 134283265,
  67108993, 65665, 65665, 65665, 67108993, 65665, 65665, 134217793, 67108993, 65665, 134283265, 65665, 134283265,
  134217793, 65665, 67108993, 134283265, 134217793, 134283265, 134217793, 134217793, 134217793, 68719608001,
  68719608001, 206158495873, 206158495873, 68719608001, 206158495873, 1, 65, 65, 65, 65, 65, 65, 65, 65, 65537,
  131137, 131137, 65537, 131137, 131137, 65537, 131137, 131137, 65537, 131137, 131137, 65537, 131137, 131137, 65537,
  131137, 131137, 65, 65, 65, 65, 65537, 131137, 131137, 65537, 131137, 131137, 65537, 131137, 131137, 65537, 131137,
  131137, 65537, 131137, 131137, 65537, 131137, 131137, 65537, 131137, 131137, 65537, 131137, 131137, 65537, 131137,
  131137, 65537, 131137, 131137, 65537, 131137, 131137, 65537, 131137, 131137, 65537, 67239937, 67239937, 67239937,
  67239937, 67239937, 67239937, 134283265, 206292713473, 206292713473, 134283265, 206292713473, 206292713473,
  134283265, 206292713473, 206292713473, 65537, 67239937, 67239937, 67239937, 67239937, 67239937, 67239937, 134283265,
  206292713473, 206292713473, 134283265, 206292713473, 206292713473, 134283265, 206292713473, 206292713473, 65537,
  67239937, 67239937, 67239937, 67239937, 67239937, 67239937, 134283265, 206292713473, 206292713473, 134283265,
  206292713473, 206292713473, 134283265, 206292713473, 206292713473, 65537, 67239937, 67239937, 67239937, 67239937,
  67239937, 67239937, 134283265, 206292713473, 206292713473, 134283265, 206292713473, 206292713473, 134283265,
  206292713473, 206292713473, 1, 65, 65, 65, 65, 65537, 131137, 65537, 131137, 65537, 131137, 65, 65, 65, 65537,
  131137, 65537, 131137, 65537, 131137, 65537, 131137, 131137, 65537, 131137, 131137, 65537, 131137, 131137, 65537,
  67239937, 67239937, 67239937, 134283265, 206292713473, 134283265, 206292713473, 65537, 67239937, 67239937, 67239937,
  134283265, 206292713473, 134283265, 206292713473, 65537, 67239937, 67239937, 67239937, 134283265, 206292713473,
  134283265, 206292713473, 1, 65, 65, 65, 65, 65, 65, 65, 65, 65537, 131137, 131137, 65537, 131137, 131137, 65537,
  131137, 131137, 65537, 131137, 131137, 65537, 131137, 131137, 65537, 131137, 131137, 65, 65, 65, 65, 65537, 131137,
  131137, 65537, 131137, 131137, 65537, 131137, 131137, 65537, 131137, 131137, 65537, 131137, 131137, 65537, 131137,
  131137, 65537, 131137, 131137, 65537, 131137, 131137, 65537, 131137, 131137, 65537, 131137, 131137, 65537, 131137,
  131137, 65537, 131137, 131137, 65537, 67239937, 67239937, 67239937, 67239937, 67239937, 67239937, 134283265,
  206292713473, 206292713473, 134283265, 206292713473, 206292713473, 134283265, 206292713473, 206292713473, 65537,
  67239937, 67239937, 67239937, 67239937, 67239937, 67239937, 134283265, 206292713473, 206292713473, 134283265,
  206292713473, 206292713473, 134283265, 206292713473, 206292713473, 65537, 67239937, 67239937, 67239937, 67239937,
  67239937, 67239937, 134283265, 206292713473, 206292713473, 134283265, 206292713473, 206292713473, 134283265,
  206292713473, 206292713473, 65537, 67239937, 67239937, 67239937, 67239937, 67239937, 67239937, 134283265,
  206292713473, 206292713473, 134283265, 206292713473, 206292713473, 134283265, 206292713473, 206292713473, 1, 65, 65,
  65, 65, 65537, 131137, 65537, 131137, 65537, 131137, 65537, 131137, 65, 65, 65537, 131137, 131137, 65537, 131137,
  65537, 131137, 65537, 131137, 65537, 131137, 65537, 67239937, 67239937, 67239937, 134283265, 206292713473,
  134283265, 206292713473, 65537, 67239937, 67239937, 67239937, 134283265, 206292713473, 134283265, 206292713473, 1,
  65, 65, 65, 65, 65, 65, 65537, 131137, 131137, 65537, 131137, 131137, 65537, 131137, 131137, 65, 65, 65, 65537,
  131137, 131137, 65537, 131137, 131137, 65537, 131137, 131137, 65537, 131137, 131137, 65537, 131137, 131137, 65537,
  131137, 131137, 65537, 67239937, 67239937, 67239937, 67239937, 67239937, 67239937, 134283265, 206292713473,
  206292713473, 134283265, 206292713473, 206292713473, 134283265, 206292713473, 206292713473]

end Ebcc.Hints
