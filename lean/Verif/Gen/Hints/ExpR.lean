/-!
Hints for claims of `tools/expcoeffr.py`.
-/

set_option maxRecDepth 100000

namespace Ebcc.Hints

def RecCC_c1_to_t1 : List Nat := [
  1, 1]

def RecCC_t1_to_c1 : List Nat := [
  1, 1]

def RecCC_c2_to_t2 : List Nat := [
  1, 1, 65537, 65, 1]

def RecCC_t2_to_c2 : List Nat := [
  1, 1, 65, 1, 65537]

def RecCC_c3_to_t3 : List Nat := [
  1, 65, 65, 65, 65, 66561, 134283265, 66561, 134283265, 1, 1, 65, 65, 65, 65537, 65, 1, 65537, 1089, 131137, 1089,
  131137, 1]

def RecCC_t3_to_c3 : List Nat := [
  1, 1, 1, 65, 65, 65, 65537, 65, 1, 65537, 1089, 131137, 1089, 131137, 1, 65, 65, 65, 65, 66561, 134283265, 66561,
  134283265]

def RecCC_c4_to_t4 : List Nat := [
  1, 65, 65, 65, 65, 65537, 131137, 65537, 131137, 65537, 131137, 65537, 131137, 65, 65, 65537, 65537, 65537, 65537,
  131137, 131137, 131137, 131137, 66561, 131137, 66561, 131137, 66561, 131137, 66561, 131137, 65537, 68288513,
  68288513, 67239937, 67239937, 134283265, 206292713473, 134283265, 206292713473, 65537, 68288513, 68288513, 67239937,
  67239937, 134283265, 206292713473, 134283265, 206292713473, 1, 1, 1, 1, 65, 65, 65, 65, 65, 65, 65537, 65537,
  131137, 131137, 65537, 65537, 131137, 131137, 65537, 65537, 131137, 131137, 65, 65, 65, 66561, 66561, 131137,
  131137, 66561, 66561, 131137, 131137, 66561, 66561, 131137, 131137, 66561, 66561, 131137, 131137, 66561, 66561,
  131137, 131137, 66561, 66561, 131137, 131137, 65537, 68288513, 68288513, 68288513, 68288513, 134283265, 134283265,
  206292713473, 206292713473, 65537, 68288513, 68288513, 68288513, 68288513, 134283265, 134283265, 206292713473,
  206292713473, 65537, 68288513, 68288513, 68288513, 68288513, 134283265, 134283265, 206292713473, 206292713473, 65,
  65537, 65537, 65537, 65, 65, 65, 65, 65, 1089, 66561, 65537, 65, 1, 65537, 1, 65537, 1090, 135266369, 1090,
  135266369, 1114241, 134283457, 1114241, 134283457, 1090, 135266369, 1090, 135266369, 1114241, 134283457, 1114241,
  134283457, 1, 65, 65, 65, 65, 3137, 67108993, 67108993, 68157569, 68157569, 67585, 134283265, 134283265, 135331841,
  135331841, 67585, 135331841, 135331841, 135266369, 135266369, 68609, 135331841, 135331841, 135266369, 135266369, 8,
  65537, 65537, 66561, 65537, 65537, 66561, 66561, 66561, 134217793, 134217793, 66561, 66561, 134217793, 134217793,
  66561, 66561, 134217793, 134217793, 66561, 65537, 65537, 65537, 65537, 134283265, 134283265, 65537, 65537,
  134283265, 134283265, 65537, 65537, 134283265, 134283265, 65537, 65537, 134283265, 134283265, 65537, 65537,
  134283265, 134283265, 65537, 65537, 134283265, 134283265, 68609, 134283265, 134283265, 134283265, 134283265,
  135331841, 135331841, 137640345601, 137640345601, 67585, 134283265, 134283265, 134283265, 134283265, 135331841,
  135331841, 137640345601, 137640345601, 67585, 134283265, 134283265, 134283265, 134283265, 135331841, 135331841,
  137640345601, 137640345601, 65, 1089, 66561, 65, 66561, 65537, 65, 65, 65537, 65537, 65, 65537, 65, 65, 65537, 65,
  65, 65, 2, 1, 1, 65, 65, 65537, 65, 65537, 65537, 65, 65, 65, 65537, 65, 65537, 1089, 65665, 1089, 65665, 1089,
  65665, 1089, 65665, 1089, 65665, 1089, 65665, 68609, 67585, 68609, 135266369, 135266369, 135266369, 135266369,
  135266369, 135266369, 135331841, 135331841, 135331841, 135331841, 135331841, 135331841, 134283265, 68920803457,
  134283265, 68920803457, 134283265, 68920803457, 134283265, 68920803457, 134283265, 68920803457, 134283265,
  68920803457, 2113, 68157569, 68157569, 68157569, 68157569, 68609, 134283265, 134283265, 135266369, 135266369, 68609,
  134217793, 134217793, 135266369, 135266369, 1089, 134217793, 1089, 134217793, 65538, 134217793, 65538, 134217793,
  65538, 134217793, 65538, 134217793, 1, 1]

def RecCC_t4_to_c4 : List Nat := [
  1, 1, 1, 1, 1, 65, 1089, 66561, 65537, 65, 65537, 65537, 65537, 65, 65, 65, 65, 65, 1, 65537, 1090, 135266369, 1090,
  135266369, 1114241, 134283457, 1114241, 134283457, 1090, 135266369, 1090, 135266369, 1114241, 134283457, 1114241,
  134283457, 1, 65, 65, 65, 65, 3137, 67108993, 67108993, 68157569, 68157569, 67585, 134283265, 134283265, 135331841,
  135331841, 67585, 135331841, 135331841, 135266369, 135266369, 68609, 135331841, 135331841, 135266369, 135266369, 8,
  66561, 65, 65537, 66561, 65537, 65537, 65, 65, 65537, 65537, 65537, 65537, 65, 65537, 65, 65, 65, 65, 2, 1, 1, 65,
  65, 65537, 65, 65537, 65537, 65, 65, 65, 65537, 65, 65537, 1089, 65665, 1089, 65665, 1089, 65665, 1089, 65665, 1089,
  65665, 1089, 65665, 3137, 2113, 3137, 68288513, 68288513, 68288513, 68288513, 68288513, 68288513, 68157569,
  68157569, 68157569, 68157569, 68157569, 68157569, 67108993, 134414401, 67108993, 134414401, 67108993, 134414401,
  67108993, 134414401, 67108993, 134414401, 67108993, 134414401, 3137, 68157569, 68157569, 68157569, 68157569, 67585,
  135331841, 135331841, 135331841, 135331841, 2113, 68157569, 68157569, 68157569, 68157569, 1, 65537, 1089, 134217793,
  1089, 134217793, 1089, 134217793, 1089, 134217793, 1089, 134217793, 1089, 134217793, 1, 65, 65, 65, 65, 65537,
  131137, 65537, 131137, 65537, 131137, 65537, 131137, 65, 65, 65537, 65537, 65537, 65537, 131137, 131137, 131137,
  131137, 66561, 131137, 66561, 131137, 66561, 131137, 66561, 131137, 65537, 68288513, 68288513, 67239937, 67239937,
  134283265, 206292713473, 134283265, 206292713473, 65537, 68288513, 68288513, 67239937, 67239937, 134283265,
  206292713473, 134283265, 206292713473, 1, 65, 65, 65, 65, 65, 65, 65537, 65537, 131137, 131137, 65537, 65537,
  131137, 131137, 65537, 65537, 131137, 131137, 65, 65, 65, 66561, 66561, 131137, 131137, 66561, 66561, 131137,
  131137, 66561, 66561, 131137, 131137, 66561, 66561, 131137, 131137, 66561, 66561, 131137, 131137, 66561, 66561,
  131137, 131137, 65537, 68288513, 68288513, 68288513, 68288513, 134283265, 134283265, 206292713473, 206292713473,
  65537, 68288513, 68288513, 68288513, 68288513, 134283265, 134283265, 206292713473, 206292713473, 65537, 68288513,
  68288513, 68288513, 68288513, 134283265, 134283265, 206292713473, 206292713473]

end Ebcc.Hints
