/-!
Hints for claims of `tools/hints.py`.
-/

set_option maxRecDepth 100000

namespace Ebcc.Hints

def energy_CCSD_S_1_1 : List Nat := [
  1, 1, 1, 1, 1, 1, 1, 1, 5, 5, 65537, 65537, 5, 5, 71681, 69633, 1, 134283265, 134283265, 65537, 1, 65, 65537,
  134217793, 65537, 1, 1, 1, 1, 1, 1, 1, 1, 1, 1, 1, 1, 1, 1, 1, 1, 1, 1, 5, 5, 2, 2, 65537, 65, 65, 65, 65, 131137,
  2228289, 5, 5, 2, 2, 65537, 65, 65, 65, 65, 2228289, 131137, 1, 65537, 65, 131137, 1, 65537, 65537, 65, 131137,
  65537, 65, 65, 65537]

def amps_CCSD_S_1_1 : List Nat := [
  1, 1, 1, 1, 1, 1, 1, 1, 1, 1, 1, 1, 1, 1, 1, 1, 1, 1, 1, 1, 1, 1, 1, 1, 1, 1, 1, 1, 69633, 65537, 69633, 138412097,
  138412097, 213674688641, 138412097, 134283265, 65537, 69633, 136315969, 134218817, 134283265, 134283265, 136314945,
  134283265, 2, 2, 139461697, 135267393, 65538, 65538, 1, 1, 69634, 69634, 65, 65537, 65537, 65537, 5, 5, 69633,
  71681, 65537, 65537, 69, 71, 65537, 65537, 1, 67108993, 67239937, 69337089, 65, 134283266, 134284289, 134284289,
  65538, 134283265, 134283265, 134283265, 65537, 134283265, 134283265, 134283265, 65537, 134283265, 134287361,
  134290433, 65537, 2, 2, 67108994, 71435265, 74580993, 66, 67108994, 71435265, 74580993, 66, 3, 1, 69633, 66561, 69,
  66, 65537, 65537, 1, 134217793, 65537, 134283265, 65537, 131137, 65, 65, 65537, 65537, 65537, 65537, 65537, 5, 5,
  69634, 69634, 65537, 65537, 66562, 70658, 67108993, 67108993, 134283266, 134283266, 69634, 69634, 67108994,
  67108994, 134283265, 134283265, 1, 5, 65537, 67585, 65537, 65537, 5, 5, 69633, 71681, 65537, 65537, 69633, 71681,
  135331841, 138477569, 1, 134283265, 134283265, 134283265, 65537, 134283265, 134283265, 134283265, 65537, 1,
  134283265, 134283265, 134283265, 134283265, 135331841, 138477569, 206292648001, 207366389825, 210587615297,
  135266369, 66561, 134283265, 67239937, 134289409, 134289409, 134284289, 134289409, 206292713473, 206293762049,
  206299004929, 134284289, 65538, 65, 65537, 65537, 65537, 1, 1, 71681, 69633, 65537, 65537, 65537, 65537, 65537,
  65537, 140510273, 138413121, 134283265, 134283265, 71, 69, 1, 134283265, 134283265, 134283265, 65537, 1, 65537,
  65537, 134283265, 69633, 134283265, 65537, 140509249, 134283265, 5, 5, 71682, 69634, 134283266, 134283266,
  134283265, 134283265, 71682, 69634, 71681, 65537, 65537, 65537, 138412097, 134283265, 3, 134283265, 65537,
  134283265, 65537, 207366389825, 210587615297, 207366389825, 138477569, 212601012289, 140509249, 206292713473,
  206292713473, 206292713473, 134283265, 206292713473, 134283265, 65537, 65537, 69337089, 67239937, 67108993,
  134284289, 134284289, 134283266, 65537, 65537, 65537, 2, 2, 66, 66, 65537, 65537, 1, 201457729, 131137, 131137,
  131137, 131137, 65, 206292713473, 134283265, 134283265, 134283265, 134283265, 65537, 1, 5, 65537, 67585, 65537,
  65537, 67108994, 68289537, 73532417, 134283265, 134283265, 134283265, 134283265, 134283265, 134283265, 206292713473,
  206292713473, 206292713473, 134283265, 206292713473, 134283265, 134283265, 134283265, 134283265, 206292713473,
  134283265, 134283265, 134283265, 134283265, 65537, 134283265, 134283265, 134283265, 134283265, 141557825, 138412097,
  206292713473, 206292713473, 206292713473, 134283265, 206292648001, 134283265, 134284289, 134284289, 134283266,
  206292713473, 134283265, 134283265, 134283265, 134283265, 65537, 134283265, 134283265, 134283265, 65, 67, 66561,
  65537, 65537, 65537, 65537, 65537, 65537, 136314945, 134283265, 137363521, 134284289, 134283265, 1, 5, 71682, 69634,
  65537, 65537, 210587615297, 206292713473, 206292713473, 206292713473, 134283265, 135266369, 135331841, 207366389825,
  138477569, 135331841, 206292713473, 206292713473, 206292713473, 206292713473, 134283265, 134283265, 134283265,
  206292713473, 134283265, 134283265, 2, 137506259969, 138715136001, 144083845121, 68289537, 67108994, 66,
  206292713473, 206292713473, 206292713473, 134283265, 134283265, 65537, 1, 67108993, 65, 134283266, 65538, 134283265,
  134283265, 134283265, 65537, 206292713473, 206292713473, 206292713473, 206292713473, 134283265, 134283265,
  134283265, 206225670145, 134283265, 134283265, 206292713473, 206292713473, 206292713473, 134283265, 134283265,
  65537, 134283265, 65537, 134283265, 134283265, 134283265, 65537, 206292713473, 206292714497, 206293762049,
  206293762049, 134284289, 134283265, 134283265, 206292713473, 134283265, 134283265, 206292713473, 206292713473,
  206292713473, 134283265, 134283265, 65537, 134283266, 65538, 65537, 138477569, 134283265, 134283265, 134283265,
  134283265, 134283265, 134283265, 134283266, 134283266, 140509249, 140509249, 134284289, 6, 2, 141558849, 138413121,
  65538, 65538, 65537, 69634, 69634, 5, 141558850, 72706, 5, 212600946817, 138478593, 72705, 4, 282780646899777,
  206292713473, 134283265, 65537, 6, 69633, 65538, 134283266, 2, 71681, 65538, 134283266, 1, 134283265, 134283265,
  65537, 67108994, 67108994, 66, 67108994, 67108994, 66, 5, 5, 66562, 70658, 1, 1, 69633, 71681, 1, 206293762049,
  206299004929, 134283265, 67239937, 134289409, 134284289, 134283265, 134285313, 65537, 1, 134283265, 65537, 1,
  134284289, 134287361, 206293696577, 206296842305, 134217793, 206292713473, 134283265, 65537, 1, 134283265,
  134283265, 65537, 1, 65537, 65538, 134283265, 65537, 65, 2, 70657, 66561, 66561, 70657, 69634, 72705, 8, 65537, 66,
  1, 1, 1, 1, 1, 1, 1, 1, 1, 1, 1, 1, 1, 1, 1, 1, 1, 1, 1, 1, 1, 1, 1, 1, 1, 1, 1, 1, 1, 1, 1, 1, 1, 1, 1, 1, 1, 1, 1,
  1, 1, 1, 1, 1, 1, 1, 1, 1, 1, 1, 1, 1, 1, 1, 1, 1, 1, 1, 1, 1, 1, 1, 1, 1, 1, 1, 1, 1, 1, 1, 1, 1, 1, 1, 69633,
  65537, 69633, 65537, 69633, 138412097, 208306044993, 282780646899777, 281681269424129, 134283265, 65537, 69633, 2,
  2, 139461697, 139460673, 135267393, 135266369, 65538, 65537, 65538, 65537, 1, 1, 71681, 69633, 65537, 65537, 65537,
  65537, 65537, 65537, 65537, 65537, 69634, 69634, 69634, 69634, 65537, 65537, 134217793, 134283265, 1, 140510273,
  66562, 134283265, 65537, 135266369, 66561, 65, 65537, 65537, 65537, 65537, 65537, 65537, 134283265, 138714087425,
  138714087425, 206292713473, 206292713473, 67240961, 67240961, 134283265, 134283265, 65537, 65537, 5, 5, 69633,
  71681, 65537, 65537, 65537, 65537, 135331841, 138477569, 69634, 69634, 69634, 69634, 65537, 65537, 65537, 65537,
  70658, 70657, 66562, 66561, 65537, 65537, 69634, 71682, 65537, 65537, 69, 71, 65537, 65537, 1, 134283265, 134283265,
  134283265, 65537, 134283265, 134283265, 134283265, 65537, 67108993, 67239937, 69337089, 65, 134283265, 134283265,
  134283265, 65537, 67108994, 71435265, 74580993, 66, 2, 2, 2, 2, 140510273, 140510273, 138413121, 138413121,
  134283265, 134283265, 134283265, 134283265, 67108994, 71435265, 74580993, 66, 67108994, 71435265, 74580993, 66, 65,
  65537, 65537, 65537, 65537, 69633, 65537, 67239937, 67239937, 134283265, 134283265, 134283265, 134283265, 65537,
  65537, 5, 5, 69633, 71681, 65537, 65537, 65537, 65537, 135331841, 138477569, 69634, 69634, 69634, 69634, 65537,
  65537, 70658, 70657, 66562, 66561, 65537, 65537, 69634, 69634, 69634, 69634, 65537, 65537, 66562, 66561, 70658,
  70657, 65537, 65537, 65537, 65537, 69, 71, 65537, 65537, 1, 134283265, 134283265, 134283265, 65537, 134283265,
  134283265, 134283265, 65537, 67108993, 67239937, 69337089, 65, 134283265, 134283265, 134283265, 65537, 67108993,
  71434241, 74579969, 65, 3, 1, 65537, 65537, 65537, 65537, 69633, 66561, 69, 66, 65537, 65537, 1, 134217793, 65537,
  134283265, 65537, 131137, 65, 65, 65537, 65537, 65537, 65537, 65537, 65537, 65537, 65537, 67108994, 68289537,
  67108994, 68289537, 134283265, 134283265, 134283265, 134283265, 65537, 65537, 65537, 1, 5, 71681, 69633, 65537,
  65537, 65537, 65537, 67108994, 67108994, 73532417, 68289537, 67108994, 67108994, 73532417, 68289537, 134283265,
  134283265, 134283265, 134283265, 134283265, 134283265, 134283265, 134283265, 71, 69, 1, 73532417, 73532417,
  137506259969, 138715136001, 144083845121, 68289537, 67108994, 67108994, 68289537, 73532417, 1090, 139460673,
  139460673, 206292713473, 206292713473, 206292713473, 134283265, 134283265, 134283265, 134283265, 134283265, 65537,
  134283265, 134283265, 206292713473, 206292713473, 206292713473, 134283265, 134283265, 134283265, 134283265,
  134283265, 65537, 134283265, 134283265, 206292648001, 207366389825, 210587615297, 135266369, 134283265, 134283265,
  135331841, 138477569, 66561, 134289409, 134289409, 206292713473, 206293762049, 206299004929, 134284289, 134283265,
  67239937, 134284289, 134289409, 65538, 65, 65537, 65537, 65537, 65537, 69633, 65537, 66561, 65537, 65537, 1,
  134283265, 134283265, 134283265, 65537, 65537, 65537, 65537, 65537, 1, 134283265, 65537, 134283265, 65537, 69633,
  65537, 69633, 65537, 69633, 138412097, 213675737217, 213674688641, 206292713473, 206292713473, 208306044993,
  282780646899777, 281681269424129, 65537, 69633, 2, 2, 139461697, 139460673, 135267393, 135266369, 65538, 65537,
  65538, 65537, 1, 1, 71681, 69633, 65537, 65537, 65537, 65537, 65537, 65537, 65537, 65537, 69634, 69634, 69634,
  69634, 65537, 65537, 138413121, 134283265, 65537, 1, 136314945, 67585, 134283265, 65537, 134283265, 65537,
  134283265, 65537, 139461697, 70658, 2, 2, 2, 2, 66, 66, 65537, 65537, 67108994, 71435265, 74580993, 66, 67108994,
  71435265, 74580993, 66, 3, 1, 69634, 69634, 66562, 66562, 65537, 65537, 65537, 65537, 65537, 65537, 65537, 65537,
  69633, 66561, 69, 66, 65537, 65537, 1, 134217793, 65537, 134283265, 65537, 131137, 65, 65, 65537, 65537, 65537,
  65537, 65537, 69633, 65537, 65537, 67108994, 68289537, 67108994, 68289537, 134283265, 134283265, 134283265,
  134283265, 69634, 65537, 65537, 138715136001, 67108994, 138715136001, 67108994, 206292713473, 140509249,
  206292713473, 140509249, 1, 5, 71681, 69633, 65537, 65537, 65537, 67585, 65537, 65537, 67108994, 67108994, 68289537,
  73532417, 67108994, 67108994, 68289537, 73532417, 134283265, 134283265, 134283265, 134283265, 134283265, 134283265,
  134283265, 134283265, 71, 69, 1, 67108993, 67108993, 137506258945, 138714087425, 144082796545, 68288513, 67108993,
  67108993, 68288513, 73531393, 1089, 140509249, 140509249, 206292713473, 206292713473, 206292713473, 134283265,
  134283265, 134283265, 134283265, 134283265, 65537, 134283265, 134283265, 206292713473, 206292713473, 206292713473,
  134283265, 134283265, 134283265, 134283265, 134283265, 65537, 134283265, 134283265, 206292648001, 207366389825,
  210587615297, 135266369, 134283265, 134283265, 135331841, 138477569, 66561, 134289409, 134289409, 206292713473,
  206293762049, 206299004929, 134284289, 134283265, 67239937, 134284289, 134289409, 65538, 65, 65537, 65537, 65537,
  65537, 69633, 65537, 66561, 65537, 65537, 1, 134283265, 134283265, 134283265, 65537, 66561, 65537, 70657, 65537,
  65537, 138412097, 134283265, 65537, 2, 2, 2, 2, 4162, 1090, 4162, 1090, 65537, 65537, 65537, 65537, 5, 5, 69634,
  69634, 71682, 71682, 134283266, 134283266, 134283266, 134283266, 134283266, 134283266, 134283266, 134283266,
  134283265, 134283265, 134283265, 134283265, 134283265, 134283265, 134283265, 134283265, 134283266, 134283266,
  134283266, 134283266, 134283266, 134283266, 134283266, 134283266, 138412097, 138412097, 138412097, 138412097,
  141557825, 141557825, 141557825, 141557825, 69633, 71681, 65537, 65537, 65537, 65537, 69634, 69634, 71682, 71682,
  134283266, 134283266, 134283266, 134283266, 134283266, 134283266, 134283266, 134283266, 134283265, 134283265,
  134283265, 134283265, 134283265, 134283265, 134283265, 134283265, 69634, 71682, 134283266, 134283266, 138412097,
  141557825, 134283265, 134283265, 65537, 65537, 2, 2, 2, 2, 69338113, 67240961, 69338113, 67240961, 134283265,
  134283265, 134283265, 134283265, 66, 66, 65537, 65537, 1, 67108993, 67239937, 69337089, 65, 67108993, 67239937,
  69337089, 65, 134283266, 134284289, 134284289, 65538, 134283266, 134284289, 134284289, 65538, 134283265, 134283265,
  134283265, 65537, 134283265, 134283265, 134283265, 65537, 3, 140509249, 135266369, 135331841, 210587615297,
  207366389825, 210587615297, 207366389825, 206292713473, 206292713473, 206292713473, 134283265, 206292713473,
  206292713473, 206292713473, 134283265, 66561, 134283265, 134283265, 134283265, 206292713473, 206292713473,
  206292713473, 206292713473, 206292713473, 206292713473, 206292713473, 134283265, 206292713473, 206292713473,
  206292713473, 134283265, 65537, 2, 67108994, 137506259969, 138715136001, 144083845121, 68289537, 66, 67108994,
  137506259969, 138715136001, 144083845121, 68289537, 66, 134283265, 206292713473, 206292713473, 206292713473,
  134283265, 65537, 134283265, 206292713473, 206292713473, 206292713473, 134283265, 65537, 65537, 65537, 65, 65537, 1,
  201457729, 131137, 131137, 131137, 131137, 65, 206292713473, 134283265, 134283265, 134283265, 134283265, 65537,
  201457729, 131137, 131137, 131137, 131137, 65, 206292713473, 134283265, 134283265, 134283265, 134283265, 65537,
  206292713473, 134283265, 134283265, 134283265, 134283265, 65537, 1, 67108993, 65, 67108993, 65, 134283266, 65538,
  134283266, 65538, 65537, 65537, 68288513, 67108993, 68288513, 67108993, 134284289, 134283266, 134284289, 134283266,
  134283265, 134283265, 134283265, 134283265, 65537, 65537, 134283265, 65537, 65537, 65537, 134283265, 134283265,
  134283265, 134283265, 134283265, 134283265, 134283265, 134283265, 134283265, 134283265, 134283265, 206292713473,
  206292713473, 206292713473, 206292713473, 206292713473, 206292713473, 206292713473, 134283265, 206292713473,
  206292713473, 206292713473, 134283265, 65537, 134283265, 206292713473, 206292713473, 206292713473, 134283265, 65537,
  134283265, 206292713473, 206292713473, 206292713473, 134283265, 65537, 206292713473, 134283265, 134283265,
  134283265, 134283265, 65537, 134283265, 65537, 134283265, 65537, 134283265, 134283265, 134283265, 134283265,
  134283265, 134283265, 134283265, 134283265, 65537, 65537, 134283265, 65537, 65537, 65537, 134283265, 134283265,
  134283265, 134283265, 134283265, 134283265, 134283265, 134283265, 134283265, 134283265, 134283265, 206292713473,
  206292713473, 206292713473, 206292713473, 206292713473, 206292713473, 206292713473, 134283265, 206292713473,
  206292713473, 206292713473, 134283265, 65537, 134283265, 206292713473, 206292713473, 206292713473, 134283265, 65537,
  134283265, 206292713473, 206292713473, 206292713473, 134283265, 65537, 206292713473, 134283265, 134283265,
  134283265, 134283265, 65537, 134283265, 65537, 134283265, 65537, 134283265, 134283265, 134283265, 134283265,
  134283265, 134283265, 134283265, 134283265, 65537, 65537, 134283265, 65537, 65537, 65537, 138412097, 138412097,
  138412097, 138412097, 141557825, 141557825, 141557825, 141557825, 134283265, 134283265, 134283265, 206292713473,
  206292713473, 206292713473, 206292713473, 206292714497, 206293762049, 206293762049, 134284289, 206292714497,
  206293762049, 206293762049, 134284289, 69633, 134283265, 206292713473, 206292713473, 206292713473, 134283265, 65537,
  134283265, 206292713473, 206292713473, 206292713473, 134283265, 65537, 206292713473, 134283265, 134283265,
  134283265, 134283265, 65537, 134283266, 65538, 134283266, 65538, 134284289, 134283266, 134284289, 134283266,
  134283265, 134283265, 134283265, 134283265, 65537, 65537, 134283265, 65537, 65537, 65537, 138412097, 138412097,
  138412097, 138412097, 141557825, 141557825, 141557825, 141557825, 134283265, 134283265, 134283265, 206292713473,
  206292713473, 206292713473, 206292713473, 206292714497, 206293762049, 206293762049, 134284289, 206292714497,
  206293762049, 206293762049, 134284289, 69633, 134283265, 206292713473, 206292713473, 206292713473, 134283265, 65537,
  134283265, 206292713473, 206292713473, 206292713473, 134283265, 65537, 206292713473, 134283265, 134283265,
  134283265, 134283265, 65537, 134283266, 65538, 134283266, 65538, 134284289, 134283266, 134284289, 134283266, 65537,
  65537, 5, 5, 69633, 71681, 134283265, 134283265, 134283265, 134283265, 281681269424129, 134283265, 134283265,
  134283265, 134283265, 134283265, 134283265, 134283265, 134283265, 281612617056257, 134283265, 134283265, 134283265,
  134283265, 134283265, 134283265, 134283265, 134283265, 69634, 69634, 71682, 71682, 134283266, 134283266, 134283266,
  134283266, 134283266, 134283266, 134283266, 134283266, 134283265, 134283265, 134283265, 134283265, 134283265,
  134283265, 134283265, 134283265, 134283266, 134283266, 134283266, 134283266, 134283266, 134283266, 134283266,
  134283266, 134283265, 134283265, 134283265, 134283265, 134283265, 134283265, 134283265, 134283265, 69633, 71681,
  65537, 65537, 65537, 65537, 69634, 69634, 71682, 71682, 134283266, 134283266, 134283266, 134283266, 134283266,
  134283266, 134283266, 134283266, 138412097, 138412097, 138412097, 138412097, 141557825, 141557825, 141557825,
  141557825, 281681269424129, 134283265, 134283265, 134283265, 134283265, 134283265, 134283265, 134283265, 134283265,
  281612617056257, 134283265, 134283265, 134283265, 134283265, 134283265, 134283265, 134283265, 134283265, 65537,
  137363521, 137364545, 134283265, 134283265, 136314945, 134283265, 65537, 2, 2, 2, 2, 71435265, 71435265, 138412097,
  138412097, 138413121, 138413121, 69634, 69634, 134283265, 134283265, 65537, 65537, 66561, 65537, 65537, 65537, 1, 1,
  71681, 69633, 65537, 65537, 67108993, 67108993, 69337089, 67239937, 67108993, 67108993, 69337089, 67239937,
  134283266, 134283266, 134284289, 134284289, 134283266, 134283266, 134284289, 134284289, 65538, 65538, 65537, 65537,
  65537, 134283265, 134283265, 1, 5, 71682, 71682, 69634, 69634, 65537, 65537, 65537, 65537, 207366389825,
  206292713473, 206292713473, 207366389825, 138477569, 138477569, 212601012289, 138477569, 138477569, 135331841,
  135331841, 206292713473, 206292713473, 206292713473, 206292713473, 134283265, 134283265, 206292713473, 134283265,
  134283265, 134283265, 134283265, 206292713473, 206292713473, 134283265, 134283265, 134283265, 134283265, 134283265,
  134283265, 134283265, 134283265, 134283265, 134283265, 134283265, 134283265, 134283265, 134283265, 134283265,
  134283265, 134283265, 134283265, 134283265, 134283265, 134283265, 134283265, 134283265, 134283265, 206292713473,
  206292713473, 206292713473, 206292713473, 134283265, 134283265, 206292713473, 134283265, 134283265, 134283265,
  134283265, 206292713473, 206292713473, 134283265, 134283265, 134283265, 134283265, 134283265, 134283265, 134283265,
  134283265, 134283265, 134283265, 134283265, 134283265, 134284289, 134284289, 134283265, 134283265, 134283265,
  134283265, 134283265, 134283265, 134283265, 134283265, 134283265, 134283265, 206292713473, 206292713473,
  206292713473, 206225670145, 134283265, 134283265, 206292713473, 134283265, 134283265, 134283265, 134283265,
  206292713473, 206292713473, 134283265, 134283265, 134283265, 134283265, 140509249, 140509249, 134283265, 134283265,
  140509249, 140509249, 134283265, 134283265, 134283265, 134283265, 138412097, 138412097, 134283266, 134283266,
  134284289, 134284289, 134283266, 134283266, 134284289, 134284289, 206292713473, 206293762049, 206293762049,
  206292713473, 134284289, 134284289, 206292648001, 134283265, 134283265, 134283265, 134283265, 206292713473,
  206292713473, 134283265, 134283265, 134283265, 134283265, 140509249, 140509249, 134283265, 134283265, 140509249,
  140509249, 134283265, 134283265, 134284289, 134284289, 138412097, 138412097, 134283266, 134283266, 134284289,
  134284289, 134283266, 134283266, 134284289, 134284289, 206292713473, 206293762049, 206293762049, 206225670145,
  134284289, 134284289, 206292648001, 134283265, 134283265, 134283265, 134283265, 65537, 134283265, 134283265, 69633,
  69633, 69634, 69634, 209379786817, 209380835393, 137363521, 137364545, 141557825, 141558849, 210587615297,
  210587615297, 138477570, 138477570, 69634, 69634, 5, 138477569, 138477569, 71681, 206293762049, 206293762049,
  135331841, 210588663873, 210588663873, 138412097, 134283265, 206292713473, 206292713473, 134283265, 134283265,
  206292713473, 206292713473, 134283265, 138477569, 206293762049, 206293762049, 134284289, 134284289, 210587615297,
  210587615297, 134217793, 72706, 72705, 69634, 69634, 65537, 65537, 69634, 69634, 65538, 65538, 69633, 69633, 65537,
  65537, 65537, 65537, 66561, 65537, 70658, 65537, 65537, 138413121, 134283265, 65537, 65537, 69634, 65537, 2, 2, 2,
  2, 69338113, 67240961, 69338113, 67240961, 134283265, 134283265, 134283265, 134283265, 1, 67108993, 67239937,
  69337089, 65, 67108993, 67239937, 69337089, 65, 134283266, 134284289, 134284289, 65538, 134283266, 134284289,
  134284289, 65538, 134283265, 134283265, 134283265, 65537, 134283265, 134283265, 134283265, 65537, 3, 140509249,
  135266369, 135331841, 210587615297, 207366389825, 210587615297, 207366389825, 206292713473, 206292713473,
  206292713473, 134283265, 206292713473, 206292713473, 206292713473, 134283265, 66561, 134283265, 134283265,
  134283265, 206292713473, 206292713473, 206292713473, 206292713473, 206292713473, 206292713473, 206292713473,
  134283265, 206292713473, 206292713473, 206292713473, 134283265, 65537, 2, 67108994, 137506259969, 138715136001,
  144083845121, 68289537, 66, 67108994, 137506259969, 138715136001, 144083845121, 68289537, 66, 134283265,
  206292713473, 206292713473, 206292713473, 134283265, 65537, 134283265, 206292713473, 206292713473, 206292713473,
  134283265, 65537, 65537, 65537, 66, 65537, 1, 131137, 131137, 201457729, 131137, 131137, 65, 134283265, 134283265,
  206292713473, 134283265, 134283265, 65537, 131137, 131137, 201457729, 131137, 131137, 65, 134283265, 134283265,
  206292713473, 134283265, 134283265, 65537, 134283265, 134283265, 206292713473, 134283265, 134283265, 65537, 1,
  67108993, 65, 67108993, 65, 134283266, 65538, 134283266, 65538, 65537, 65537, 68288513, 67108993, 68288513,
  67108993, 134284289, 134283266, 134284289, 134283266, 65537, 65537, 65537, 65537, 134283265, 134283265, 134283265,
  134283265, 134283265, 134283265, 134283265, 134283265, 134283265, 134283265, 134283265, 134283265, 65537, 134283265,
  134283265, 134283265, 134283265, 206292713473, 206292713473, 206292713473, 206292713473, 206292713473, 206292713473,
  206292713473, 134283265, 206292713473, 206292713473, 206292713473, 134283265, 65537, 134283265, 206292713473,
  206292713473, 206292713473, 134283265, 65537, 134283265, 206292713473, 206292713473, 206292713473, 134283265, 65537,
  134283265, 134283265, 206292713473, 134283265, 134283265, 65537, 134283265, 65537, 134283265, 65537, 134283265,
  134283265, 134283265, 134283265, 65537, 65537, 65537, 65537, 134283265, 134283265, 134283265, 134283265, 134283265,
  134283265, 134283265, 134283265, 134283265, 134283265, 134283265, 134283265, 65537, 134283265, 134283265, 134283265,
  134283265, 206292713473, 206292713473, 206292713473, 206292713473, 206292713473, 206292713473, 206292713473,
  134283265, 206292713473, 206292713473, 206292713473, 134283265, 65537, 134283265, 206292713473, 206292713473,
  206292713473, 134283265, 65537, 134283265, 206292713473, 206292713473, 206292713473, 134283265, 65537, 134283265,
  134283265, 206292713473, 134283265, 134283265, 65537, 134283265, 65537, 134283265, 65537, 134283265, 134283265,
  134283265, 134283265, 65537, 65537, 65537, 65537, 134283265, 134283265, 134283265, 134283265, 138412097, 138412097,
  138412097, 138412097, 141557825, 141557825, 141557825, 141557825, 65537, 134283265, 134283265, 134283265, 134283265,
  206292713473, 206292713473, 206292713473, 206292713473, 206292714497, 206293762049, 206293762049, 134284289,
  206292714497, 206293762049, 206293762049, 134284289, 69633, 134283265, 206292713473, 206292713473, 206292713473,
  134283265, 65537, 134283265, 206292713473, 206292713473, 206292713473, 134283265, 65537, 134283265, 134283265,
  206292713473, 134283265, 134283265, 65537, 134283266, 65538, 134283266, 65538, 134284289, 134283266, 134284289,
  134283266, 65537, 65537, 65537, 65537, 134283265, 134283265, 134283265, 134283265, 138412097, 138412097, 138412097,
  138412097, 141557825, 141557825, 141557825, 141557825, 65537, 134283265, 134283265, 134283265, 134283265,
  206292713473, 206292713473, 206292713473, 206292713473, 206292714497, 206293762049, 206293762049, 134284289,
  206292714497, 206293762049, 206293762049, 134284289, 69633, 134283265, 206292713473, 206292713473, 206292713473,
  134283265, 65537, 134283265, 206292713473, 206292713473, 206292713473, 134283265, 65537, 134283265, 134283265,
  206292713473, 134283265, 134283265, 65537, 134283266, 65538, 134283266, 65538, 134284289, 134283266, 134284289,
  134283266, 65537, 65537, 72706, 72705, 69634, 69634, 69633, 69633, 69634, 69634, 65538, 65538, 69633, 69633, 65537,
  65537, 65537, 65537, 65537, 134283265, 134283265, 69633, 69633, 141557826, 141558850, 137363522, 137364546,
  134283265, 134283265, 69634, 69634, 5, 138477569, 138477569, 71681, 206293762049, 206293762049, 135331841,
  206292713473, 206292713473, 134283265, 206292713473, 206292713473, 134283265, 134283265, 134283265, 206292713473,
  206292713473, 134283265, 206293762049, 206293762049, 138477569, 134284289, 134284289, 210587615297, 210587615297,
  134217793, 65537, 137364545, 137363521, 134283265, 134283265, 136314945, 134283265, 70658, 67108993, 67108993,
  134283265, 134283265, 65537, 65537, 2, 2, 2, 2, 140510273, 140510273, 138413121, 138413121, 134283265, 134283265,
  134283265, 134283265, 66, 66, 134283266, 134283266, 134283265, 134283265, 65537, 65537, 4162, 6210, 4162, 6210,
  65537, 65537, 65537, 65537, 134218817, 134218817, 65538, 65538, 134283265, 134283265, 65537, 65537, 65537, 65537,
  65537, 65537, 65537, 134283265, 134283265, 1, 5, 2, 2, 2, 2, 6210, 4162, 6210, 4162, 65537, 65537, 65537, 65537,
  206292713473, 206292713473, 207366389825, 207366389825, 138477569, 138477569, 212601012289, 138477569, 135331841,
  138477569, 135331841, 206292713473, 206292713473, 206292713473, 206292713473, 134283265, 134283265, 206292713473,
  134283265, 134283265, 134283265, 134283265, 1, 1, 71681, 69633, 65537, 65537, 67108993, 67108993, 69337089,
  67239937, 67108993, 67108993, 69337089, 67239937, 134283266, 134283266, 134284289, 134284289, 134283266, 134283266,
  134284289, 134284289, 206292713473, 134283265, 206292713473, 134283265, 134283265, 134283265, 134283265, 134283265,
  134283265, 134283265, 134283265, 134283265, 134283265, 134283265, 134283265, 134283265, 134283265, 134283265,
  134283265, 134283265, 134283265, 134283265, 206292713473, 206292713473, 206292713473, 206292713473, 134283265,
  134283265, 206292713473, 134283265, 134283265, 134283265, 134283265, 134283265, 134283265, 134283265, 134283265,
  134283265, 134283265, 134283265, 134283265, 206292713473, 134283265, 206292713473, 134283265, 134283265, 134283265,
  134283265, 134283265, 134283265, 134283265, 134283265, 134283265, 134284289, 134284289, 134283265, 134283265,
  134283265, 134283265, 134283265, 134283265, 134283265, 134283265, 206292713473, 206292713473, 206292713473,
  206225670145, 134283265, 134283265, 206292713473, 134283265, 134283265, 134283265, 134283265, 134283265, 134283265,
  134283265, 134283265, 134283265, 134283265, 134283265, 134283265, 206292713473, 139460673, 206292713473, 139460673,
  140509249, 140509249, 134283265, 134283265, 140509249, 140509249, 134283265, 134283265, 134283265, 134283265,
  134283266, 134283266, 134283265, 134283265, 134283265, 134283265, 138412097, 138412097, 206293762049, 206293762049,
  206292713473, 206292713473, 134284289, 134284289, 206292648001, 134283265, 134283265, 134283265, 134283265,
  134283266, 134283266, 134284289, 134284289, 134283266, 134283266, 134284289, 134284289, 206292713473, 139460673,
  206292713473, 139460673, 140509249, 140509249, 134283265, 134283265, 140509249, 140509249, 134283265, 134283265,
  134284289, 134284289, 134283266, 134283266, 134283265, 134283265, 134283265, 134283265, 138412097, 138412097,
  206293762049, 206293762049, 206292713473, 206225670145, 134284289, 134284289, 206292648001, 134283265, 134283265,
  134283265, 134283265, 134283266, 134283266, 134284289, 134284289, 134283266, 134283266, 134284289, 134284289, 65537,
  65537, 65537, 65537, 66561, 65537, 65537, 65537, 69634, 65537, 3, 134283266, 134283266, 134283266, 134283266,
  138413121, 138413121, 134283266, 134283266, 69634, 69634, 138412097, 138412097, 141557825, 141557825, 134283265,
  134283265, 138412097, 138412097, 65537, 65537, 134283265, 134283265, 134283265, 134283265, 134283265, 134283265,
  134283265, 134283265, 65537, 65537, 69634, 65537, 3, 1, 134283265, 134283265, 134283265, 134283265, 138412097,
  140509249, 69633, 66561, 138412097, 141557825, 138412097, 141557825, 134283265, 134283265, 65537, 65537, 134283265,
  134283265, 134283265, 134283265, 134283265, 134283265, 65537, 65537, 6, 71435265, 66, 71435265, 66, 71435265, 66,
  71435265, 66, 1, 1, 65537, 65537, 65537, 65537, 3, 1, 138413121, 140510273, 69634, 66562, 134283265, 134283265,
  65537, 65537, 134283265, 134283265, 65537, 65537, 65537, 65537, 67585, 65537, 1, 140510273, 141558849, 66562,
  134283265, 141557825, 65537, 134283265, 134283265, 65537, 65537, 65537, 65537, 65537, 65537, 65537, 1, 134283265,
  65537, 134283265, 65537, 1, 137363521, 137363521, 209379786817, 141557825, 68609, 134284289, 138478594,
  210588663873, 134284289, 69634, 134283265, 134283265, 206292713473, 134283265, 65537, 65537, 65537, 65537, 1,
  140509249, 66561, 134283265, 65537, 134283265, 65537, 65537, 65537, 65537, 65537, 1, 5, 138413121, 140510273, 71682,
  69634, 134283265, 134283265, 65537, 65537, 1, 208306044993, 136314945, 136314945, 134283265, 67585, 206292713473,
  134283265, 134283265, 134283265, 65537, 3, 134283265, 65537, 134283265, 65537, 3, 206292713473, 206292713473,
  206292713473, 134283265, 210587615297, 138477569, 207366389825, 207366389825, 135331841, 135331841, 135266369,
  138477569, 210587615297, 138477569, 282780646899777, 212735098945, 207366389825, 206292713473, 135331841,
  212601012289, 140509249, 66561, 206292714497, 206293762049, 206293762049, 134284289, 206292713473, 134283265,
  206292713473, 206292713473, 134283265, 134283265, 134283265, 134284289, 206292713473, 134283265, 286010663501889,
  206225670145, 206225670145, 210588663873, 138412097, 206292648001, 134283265, 69633, 206292713473, 206292713473,
  206292713473, 134283265, 206292713473, 134283265, 206292713473, 206292713473, 134283265, 134283265, 134283265,
  134283265, 206292713473, 134283265, 281681269424129, 206292713473, 206292713473, 206292713473, 134283265,
  206292713473, 134283265, 65537, 5, 5, 70658, 70657, 66562, 66561, 65537, 65537, 65537, 65537, 1, 69337089, 67239937,
  67108993, 67108993, 67108993, 67108993, 65, 134284289, 134284289, 134283266, 134283266, 134283266, 134283266, 65538,
  134283265, 134283265, 134283265, 134283265, 134283265, 134283265, 65537, 1, 67108993, 67108993, 69337089, 67239937,
  67108993, 67108993, 65, 134283266, 134283266, 134284289, 134284289, 134283266, 134283266, 65538, 134283265,
  134283265, 134283265, 134283265, 134283265, 134283265, 65537, 70657, 65537, 65537, 65537, 1, 5, 138412097,
  140509249, 71681, 69633, 134283265, 134283265, 65537, 65537, 1, 134283265, 65537, 134283265, 65537, 6, 210587615297,
  134283265, 206292713473, 206292713473, 206292713473, 134283265, 207366389825, 207366389825, 135331841, 135331841,
  136314945, 138477569, 210587615297, 138477569, 212601012289, 135266369, 67585, 206292713473, 134283265,
  206292714497, 206293762049, 206293762049, 134284289, 206292713473, 206292713473, 134283265, 134283265, 134283265,
  134284289, 206292713473, 134283265, 206292648001, 134283265, 69633, 206292713473, 134283265, 206292713473,
  206292713473, 206292713473, 134283265, 206292713473, 206292713473, 134283265, 134283265, 134283265, 134283265,
  206292713473, 134283265, 206292713473, 134283265, 65537, 65537, 65537, 6, 134283265, 65537, 138412097, 65537,
  134283265, 65537, 1, 134283265, 134287361, 134290433, 65537, 1, 134283265, 134287361, 134290433, 65537, 65, 65537,
  1, 134283265, 134283265, 65537, 67108994, 67108994, 66, 67108994, 67108994, 66, 67108994, 67108994, 66, 69, 65537,
  1, 134283265, 134283265, 65537, 67108993, 67108993, 65, 67108994, 67108994, 66, 67108994, 67108994, 66, 1,
  134285313, 134283265, 206293762049, 206299004929, 134283265, 67239937, 134284289, 134289409, 65537, 1, 134283265,
  65537, 1, 65, 134287361, 134284289, 206293696577, 206296842305, 134217793, 206292713473, 134283265, 65537, 1, 1, 71,
  69, 1, 69, 134283265, 134283265, 65537, 65537, 65537, 65537, 65537, 1, 134283265, 65538, 134283265, 65538, 1,
  206293762049, 206299004929, 134289409, 134284289, 134285313, 134283265, 134283265, 67239937, 65537, 1, 134283265,
  65537, 1, 69, 134287361, 134284289, 206293696577, 206296842305, 134217793, 206292713473, 134283265, 65537, 1, 1, 71,
  69, 1, 69, 134283265, 134283265, 65537, 2, 69633, 70657, 65, 65537, 65537, 70657, 69634, 2, 65, 8, 8, 8, 8, 8, 4,
  65537, 1, 66, 65537, 1, 70, 70, 1, 206293762049, 138477569, 134283265, 134283265, 134283265, 206292713473,
  206292713473, 206292713473, 134283265, 206292713473, 134283265, 134283265, 134283265, 134283265, 206292713473,
  134283265, 134283265, 134283265, 134283265, 65537, 134283265, 134283265, 134283265, 134283265, 134283265, 134283265,
  206292713473, 206292713473, 206292713473, 134283265, 206292713473, 134283265, 134283265, 134283265, 134283265,
  206292713473, 134283265, 134283265, 134283265, 134283265, 65537, 134283265, 134283265, 134283265, 134284289,
  134284289, 134283265, 134283265, 134283265, 65537, 206292713473, 206292713473, 206292713473, 206292713473,
  134283265, 134283265, 134283265, 206225670145, 134283265, 134283265, 206292713473, 206292713473, 206292713473,
  134283265, 134283265, 65537, 134283265, 65537, 134283265, 134283265, 134283265, 65537, 206292713473, 206292713473,
  206292713473, 206292713473, 134283265, 134283265, 134283265, 206225670145, 134283265, 134283265, 206292713473,
  206292713473, 206292713473, 134283265, 134283265, 65537, 134283265, 65537, 134283265, 134283265, 134283265,
  134283265, 134283265, 134283265, 134283265, 134283265, 134283265, 134283265, 134283265, 134283265, 65537, 65537,
  134284289, 65538, 281612617056257, 210587615297, 134217793, 65537, 65537, 134283265, 65537, 134283265, 65537, 65537,
  65537, 65537, 69633, 65537, 1, 206293762049, 138477569, 134283265, 134283265, 134283265, 206292713473, 206292713473,
  206292713473, 134283265, 206292713473, 134283265, 134283265, 134283265, 134283265, 206292713473, 134283265,
  134283265, 134283265, 134283265, 65537, 134283265, 134283265, 134283265, 134283265, 134283265, 134283265,
  206292713473, 206292713473, 206292713473, 134283265, 206292713473, 134283265, 134283265, 134283265, 134283265,
  206292713473, 134283265, 134283265, 134283265, 134283265, 65537, 134283265, 134283265, 134283265, 134284289,
  134284289, 134283265, 134283265, 134283265, 65537, 206292713473, 206292713473, 206292713473, 206292713473,
  134283265, 134283265, 134283265, 206225670145, 134283265, 134283265, 206292713473, 206292713473, 206292713473,
  134283265, 134283265, 65537, 134283265, 65537, 134283265, 134283265, 134283265, 65537, 206292713473, 206292713473,
  206292713473, 206292713473, 134283265, 134283265, 134283265, 206225670145, 134283265, 134283265, 206292713473,
  206292713473, 206292713473, 134283265, 134283265, 65537, 134283265, 65537, 134283265, 134283265, 134283265,
  134283265, 134283265, 134283265, 134283265, 134283265, 134283265, 134283265, 134283265, 134283265, 65537, 65537,
  134284289, 65538, 281612617056257, 210587615297, 134217793, 65537, 65537, 134283265, 65537, 134283265, 65537, 65537,
  65537, 65537, 69633, 65537, 1, 210588663873, 138412097, 134283265, 141557825, 138412097, 206292713473, 206292713473,
  206292713473, 134283265, 206292648001, 134283265, 134284289, 134284289, 134283266, 206292713473, 134283265,
  134283265, 134283265, 134283265, 65537, 134283265, 134283265, 134283265, 134283265, 141557825, 138412097,
  206292713473, 206292713473, 206292713473, 134283265, 206292648001, 134283265, 134284289, 134284289, 134283266,
  206292713473, 134283265, 134283265, 134283265, 134283265, 65537, 134283265, 134283265, 134283265, 134284289,
  134284289, 134283265, 134283265, 134283265, 65537, 206292713473, 206292714497, 206293762049, 206293762049,
  134284289, 134283265, 134283265, 206225670145, 134283265, 134283265, 206292713473, 206292713473, 206292713473,
  134283265, 134283265, 65537, 134283266, 65538, 134283265, 134283265, 134283265, 65537, 206292713473, 206292714497,
  206293762049, 206293762049, 134284289, 134283265, 134283265, 206225670145, 134283265, 134283265, 206292713473,
  206292713473, 206292713473, 134283265, 134283265, 65537, 134283266, 65538, 134283266, 134283266, 140509249,
  140509249, 134284289, 134283266, 134283266, 139460673, 139460673, 134284289, 141557825, 138412097, 65537, 65537,
  138478594, 69634, 286010663501889, 210588663873, 138412097, 69633, 65537, 138412097, 65537, 141557825, 65537, 65537,
  65537, 65537, 69634, 69633, 5]

def energy_CCSD_SD_1_1 : List Nat := [
  1, 1, 1, 1, 1, 1, 1, 1, 5, 5, 71681, 69633, 65537, 65537, 1, 134283265, 134283265, 65537, 1, 65, 65537, 134217793,
  65537, 1, 1, 1, 1, 1, 1, 1, 1, 1, 1, 1, 1, 1, 1, 1, 1, 1, 1, 5, 5, 2, 2, 65537, 65, 65, 65, 65, 131137, 2228289, 5,
  5, 2, 2, 65537, 65, 65, 65, 65, 131137, 2228289, 1, 65537, 65, 131137, 1, 65537, 65537, 65, 131137, 65537, 65537,
  65, 65]

def amps_CCSD_SD_1_1 : List Nat := [
  1, 1, 1, 1, 1, 1, 1, 1, 1, 1, 1, 1, 1, 1, 1, 1, 1, 1, 1, 1, 1, 1, 1, 1, 1, 1, 1, 1, 1, 65537, 65537, 69633,
  138412097, 134283265, 65537, 69633, 136315969, 134218817, 134283265, 134283265, 136314945, 134283265, 138412097,
  138412097, 138412097, 2, 2, 139460673, 135266369, 65537, 65537, 1, 1, 69634, 69634, 65, 65537, 65537, 65537, 5, 5,
  69633, 71681, 65537, 65537, 69, 71, 65537, 65537, 131141, 131142, 1, 67108993, 67239937, 69337089, 65, 134283266,
  134284289, 134284289, 65538, 134283265, 134283265, 134283265, 65537, 134283265, 134283265, 134283265, 65537,
  134283265, 134287361, 134290433, 65537, 2, 2, 66, 66, 65537, 65537, 67108994, 71435265, 74580993, 66, 67108994,
  71435265, 74580993, 66, 3, 1, 69633, 66561, 69, 66, 65537, 65537, 1, 134217793, 65537, 134283265, 65537, 131137, 65,
  65, 65537, 65537, 65537, 65537, 65537, 5, 5, 69634, 69634, 65537, 65537, 69633, 71681, 65537, 65537, 66561, 70657,
  67108993, 67108993, 134283266, 134283266, 69633, 71681, 135331841, 138477569, 1, 5, 65537, 67585, 65537, 65537, 1,
  134283265, 134283265, 134283265, 65537, 134283265, 134283265, 134283265, 65537, 1, 134283265, 134283265, 134283265,
  134283265, 135331841, 138477569, 206292648001, 207366389825, 210587615297, 135266369, 66561, 134283265, 67239937,
  134289409, 134289409, 134284289, 134289409, 206292713473, 206293762049, 206299004929, 134284289, 65538, 65, 65537,
  65537, 65537, 1, 1, 69633, 71681, 65537, 65537, 65537, 65537, 69, 71, 1, 134283265, 134283265, 134283265, 65537,
  65537, 65537, 1, 134283265, 65537, 135331841, 66561, 65537, 134283265, 65537, 140509249, 134283265, 5, 5, 71682,
  69634, 134283266, 134283266, 134283265, 134283265, 71682, 69634, 71681, 65537, 65537, 65537, 138412097, 134283265,
  3, 134283265, 65537, 134283265, 65537, 207366389825, 210587615297, 207366389825, 138477569, 212601012289, 140509249,
  206292713473, 206292713473, 206292713473, 134283265, 206292713473, 134283265, 65537, 65537, 67239937, 69337089,
  67108993, 134284289, 134284289, 134283266, 65537, 65537, 65537, 1, 131137, 131137, 201457729, 131137, 131137, 65,
  134283265, 134283265, 206292713473, 134283265, 134283265, 65537, 1, 5, 65537, 67585, 65537, 65537, 67108994,
  68289537, 73532417, 134283265, 134283265, 134283265, 134283265, 134283265, 134283265, 206292713473, 206292713473,
  206292713473, 134283265, 206292713473, 134283265, 134283265, 134283265, 134283265, 134283265, 134283265,
  206292713473, 134283265, 134283265, 65537, 134283265, 134283265, 134283265, 134283265, 141557825, 138412097,
  206292713473, 206292713473, 206292713473, 134283265, 206292648001, 134283265, 134284289, 134284289, 134283266,
  134283265, 134283265, 206292713473, 134283265, 134283265, 65537, 134283265, 134283265, 134283265, 65538, 67586,
  65537, 65537, 65, 67, 66561, 65537, 1, 1, 65537, 65537, 140510273, 138413121, 134283265, 134283265, 65537, 65537,
  65537, 65537, 65537, 136314945, 134283265, 210587615297, 206292713473, 206292713473, 206292713473, 134283265,
  135331841, 138477569, 135266369, 135331841, 207366389825, 206292713473, 206292713473, 206292713473, 206292713473,
  134283265, 134283265, 134283265, 134283265, 134283265, 206292713473, 137363521, 134284289, 134283265, 2,
  137506259969, 138715136001, 144083845121, 68289537, 67108994, 66, 206292713473, 206292713473, 206292713473,
  134283265, 134283265, 65537, 1, 67108993, 65, 134283266, 65538, 134283265, 65537, 134283265, 134283265,
  206292713473, 206292713473, 206292713473, 206292713473, 134283265, 134283265, 134283265, 134283265, 134283265,
  206225670145, 206292713473, 206292713473, 206292713473, 134283265, 134283265, 65537, 134283265, 65537, 134283265,
  65537, 134283265, 134283265, 206292713473, 206292714497, 206293762049, 206293762049, 134284289, 134283265,
  134283265, 134283265, 134283265, 206292713473, 206292713473, 206292713473, 206292713473, 134283265, 134283265,
  65537, 134283266, 65538, 65538, 138477569, 134283265, 5, 5, 69634, 69634, 67108994, 67108994, 134283265, 134283265,
  134283265, 134283265, 134283265, 134283265, 134283265, 134283266, 134283266, 134284289, 140509249, 140509249, 6, 2,
  141558849, 138413121, 65538, 65538, 69633, 69634, 69634, 5, 209379786817, 137363521, 68609, 5, 212600946817,
  138478593, 72705, 4, 282780646899777, 206292713473, 134283265, 65537, 6, 69633, 65538, 134283266, 2, 71681, 65538,
  134283266, 65537, 65537, 65537, 65537, 1, 134218817, 1090, 134283265, 65537, 65537, 134283265, 65537, 65537,
  134283265, 65537, 134283265, 65538, 65, 65537, 1, 134283265, 134283265, 134283265, 65537, 67108994, 67108994,
  67108994, 66, 67108994, 67108994, 67108994, 66, 5, 5, 70657, 66561, 1, 1, 69633, 71681, 1, 206293762049,
  206299004929, 134283265, 67239937, 134289409, 134284289, 134283265, 134285313, 65537, 1, 134283265, 65537, 1, 65,
  134284289, 134287361, 206293696577, 206296842305, 206292648001, 134217793, 206292713473, 134283265, 65537,
  134283265, 1, 65, 134283265, 134283265, 65537, 134283265, 65, 2, 65537, 70657, 66561, 66561, 70657, 69634, 8, 72705,
  65537, 66, 1, 65, 1, 1, 1, 1, 1, 1, 1, 1, 1, 1, 1, 1, 1, 1, 1, 1, 1, 1, 1, 1, 1, 1, 1, 1, 1, 1, 1, 1, 1, 1, 1, 1, 1,
  1, 1, 1, 1, 1, 1, 1, 1, 1, 1, 1, 1, 1, 1, 1, 1, 1, 1, 1, 1, 1, 1, 1, 1, 1, 1, 1, 1, 1, 1, 1, 1, 1, 1, 1, 1, 1, 1, 1,
  1, 1, 69633, 65537, 69633, 65537, 69633, 138412097, 208306044993, 282780646899777, 281681269424129, 213674688641,
  213675737217, 206292713473, 206292713473, 65537, 69633, 2, 2, 139461697, 139460673, 135267393, 135266369, 65538,
  65537, 65538, 65537, 1, 1, 71681, 69633, 65537, 65537, 65537, 65537, 65537, 65537, 65537, 65537, 69634, 69634,
  69634, 69634, 65537, 65537, 134217793, 134283265, 1, 140510273, 66562, 134283265, 65537, 135266369, 66561, 65,
  65537, 65537, 65537, 65537, 65537, 65537, 134283265, 138714087425, 138714087425, 206292713473, 206292713473,
  67239937, 67239937, 134283265, 134283265, 65537, 65537, 5, 5, 71681, 69633, 65537, 65537, 65537, 65537, 135331841,
  138477569, 66562, 66561, 70658, 70657, 65537, 65537, 70658, 70657, 66562, 66561, 65537, 65537, 65537, 65537, 71, 69,
  65537, 65537, 1, 134283265, 134283265, 134283265, 65537, 134283265, 134283265, 134283265, 65537, 67108993, 67239937,
  69337089, 65, 134283265, 134283265, 134283265, 65537, 67108994, 71435265, 74580993, 66, 2, 2, 2, 2, 66, 66, 65537,
  65537, 67108994, 71435265, 74580993, 66, 67108994, 71435265, 74580993, 66, 65, 65537, 65537, 65537, 65537, 69633,
  65537, 67240961, 67240961, 134283265, 134283265, 134283265, 134283265, 65537, 65537, 5, 5, 69633, 71681, 65537,
  65537, 65537, 65537, 135331841, 138477569, 69634, 69634, 69634, 69634, 65537, 65537, 69633, 71681, 65537, 65537, 69,
  71, 65537, 65537, 1, 134283265, 134283265, 134283265, 65537, 134283265, 134283265, 134283265, 65537, 67108993,
  67239937, 69337089, 65, 134283265, 134283265, 134283265, 65537, 67108993, 71434241, 74579969, 65, 3, 1, 65537,
  65537, 65537, 65537, 69633, 66561, 69, 66, 65537, 65537, 1, 134217793, 65537, 134283265, 65537, 131137, 65, 65,
  65537, 65537, 65537, 65537, 65537, 65537, 65537, 65537, 67108994, 68289537, 67108994, 68289537, 134283265,
  134283265, 134283265, 134283265, 65537, 65537, 65537, 5, 5, 69634, 69634, 69634, 69634, 65537, 65537, 65537, 65537,
  1, 5, 71681, 69633, 65537, 65537, 65537, 65537, 67108994, 67108994, 73532417, 68289537, 67108994, 67108994,
  73532417, 68289537, 134283265, 134283265, 134283265, 134283265, 134283265, 134283265, 134283265, 134283265, 71, 69,
  1, 137506259969, 138715136001, 144083845121, 68289537, 67108994, 67108994, 68289537, 73532417, 73532417, 73532417,
  1090, 206292713473, 206292713473, 206292713473, 134283265, 134283265, 134283265, 134283265, 139460673, 139460673,
  134283265, 65537, 206292713473, 206292713473, 206292713473, 134283265, 134283265, 134283265, 134283265, 134283265,
  134283265, 134283265, 65537, 206292648001, 207366389825, 210587615297, 135266369, 134283265, 134283265, 135331841,
  134283265, 134283265, 138477569, 66561, 206292713473, 206293762049, 206299004929, 134284289, 134283265, 67239937,
  134284289, 134289409, 134289409, 134289409, 65538, 65, 65537, 65537, 65537, 65537, 69633, 65537, 66561, 65537,
  65537, 1, 134283265, 134283265, 134283265, 65537, 65537, 65537, 65537, 65537, 1, 134283265, 65537, 134283265, 65537,
  135331841, 66561, 69633, 65537, 69633, 65537, 69633, 138412097, 208306044993, 282780646899777, 281681269424129,
  134283265, 65537, 69633, 2, 2, 139461697, 139460673, 135267393, 135266369, 65538, 65537, 65538, 65537, 1, 1, 69633,
  71681, 65537, 65537, 69634, 69634, 69634, 69634, 65537, 65537, 138413121, 134283265, 65537, 1, 134283265, 65537,
  134283265, 65537, 136314945, 67585, 134283265, 65537, 139461697, 70658, 2, 2, 2, 2, 66, 66, 134283266, 134283266,
  134283265, 134283265, 67240961, 66, 67240961, 66, 134283265, 65537, 134283265, 65537, 67108994, 71435265, 74580993,
  66, 67108994, 71435265, 74580993, 66, 3, 1, 65537, 65537, 65537, 65537, 69633, 66561, 69, 66, 65537, 65537, 1,
  134217793, 65537, 134283265, 65537, 131137, 65, 65, 65537, 65537, 65537, 65537, 65537, 69633, 65537, 65537,
  67108994, 68289537, 67108994, 68289537, 134283265, 134283265, 134283265, 134283265, 69634, 65537, 65537,
  138715136001, 73532417, 138715136001, 73532417, 206292713473, 134283265, 206292713473, 134283265, 1, 5, 65537,
  67585, 65537, 65537, 65, 67, 1, 67108993, 67108993, 137506258945, 138714087425, 144082796545, 68288513, 67108993,
  67108993, 68288513, 73531393, 1089, 140509249, 140509249, 206292713473, 206292713473, 206292713473, 134283265,
  134283265, 134283265, 134283265, 134283265, 65537, 134283265, 134283265, 206292713473, 206292713473, 206292713473,
  134283265, 134283265, 134283265, 134283265, 134283265, 65537, 134283265, 134283265, 206292648001, 207366389825,
  210587615297, 135266369, 134283265, 134283265, 135331841, 138477569, 66561, 134289409, 134289409, 206292713473,
  206293762049, 206299004929, 134284289, 134283265, 67239937, 134284289, 134289409, 65538, 65, 65537, 65537, 65537,
  65537, 69633, 65537, 66561, 65537, 65537, 1, 1, 69633, 71681, 65537, 65537, 65537, 65537, 65537, 65537, 65537,
  65537, 71435265, 73532417, 71435265, 73532417, 134283265, 134283265, 134283265, 134283265, 1, 134283265, 134283265,
  134283265, 65537, 65537, 137363521, 137364545, 134283265, 134283265, 136314945, 134283265, 2, 2, 2, 2, 140510273,
  140510273, 138413121, 138413121, 134283265, 134283265, 134283265, 134283265, 4162, 4162, 65537, 65537, 71682, 71682,
  69634, 69634, 65537, 65537, 65537, 65537, 71435265, 4162, 71435265, 4162, 134283265, 65537, 134283265, 65537, 65537,
  65537, 2, 2, 2, 2, 71435265, 71435265, 138412097, 138412097, 66561, 65537, 65537, 65537, 1, 1, 71681, 69633, 65537,
  65537, 67108993, 67108993, 69337089, 67239937, 67108993, 67108993, 69337089, 67239937, 134283266, 134283266,
  134284289, 134284289, 134283266, 134283266, 134284289, 134284289, 65537, 65537, 65537, 65537, 65537, 65537, 65537,
  65537, 65537, 134283265, 134283265, 1, 5, 71682, 71682, 69634, 69634, 65537, 65537, 65537, 65537, 207366389825,
  206292713473, 206292713473, 207366389825, 138477569, 138477569, 212601012289, 138477569, 138477569, 135331841,
  135331841, 206292713473, 206292713473, 206292713473, 206292713473, 134283265, 134283265, 206292713473, 134283265,
  134283265, 134283265, 134283265, 206292713473, 206292713473, 134283265, 134283265, 134283265, 134283265, 134283265,
  134283265, 134283265, 134283265, 134283265, 134283265, 134283265, 134283265, 134283265, 134283265, 134283265,
  134283265, 134283265, 134283265, 134283265, 134283265, 134283265, 134283265, 134283265, 134283265, 206292713473,
  206292713473, 206292713473, 206292713473, 134283265, 134283265, 206292713473, 134283265, 134283265, 134283265,
  134283265, 206292713473, 206292713473, 134283265, 134283265, 134283265, 134283265, 134283265, 134283265, 134283265,
  134283265, 134284289, 134284289, 134283265, 134283265, 134283265, 134283265, 134283265, 134283265, 134283265,
  134283265, 134283265, 134283265, 134283265, 134283265, 134283265, 134283265, 206292713473, 206292713473,
  206292713473, 206225670145, 134283265, 134283265, 206292713473, 134283265, 134283265, 134283265, 134283265,
  206292713473, 206292713473, 140509249, 140509249, 134283265, 134283265, 140509249, 140509249, 134283265, 134283265,
  134283265, 134283265, 134283265, 134283265, 134283265, 134283265, 138412097, 138412097, 134283266, 134283266,
  134284289, 134284289, 134283266, 134283266, 134284289, 134284289, 206292713473, 206293762049, 206293762049,
  206292713473, 134284289, 134284289, 206292648001, 134283265, 134283265, 134283265, 134283265, 206292713473,
  206292713473, 140509249, 140509249, 134283265, 134283265, 140509249, 140509249, 134283265, 134283265, 134284289,
  134284289, 134283265, 134283265, 134283265, 134283265, 138412097, 138412097, 134283266, 134283266, 134284289,
  134284289, 134283266, 134283266, 134284289, 134284289, 206292713473, 206293762049, 206293762049, 206225670145,
  134284289, 134284289, 206292648001, 134283265, 134283265, 134283265, 134283265, 66561, 65537, 70657, 65537, 65537,
  138412097, 134283265, 65537, 2, 2, 2, 2, 4162, 1090, 4162, 1090, 65537, 65537, 65537, 65537, 136315969, 136315969,
  134218817, 134218817, 134283265, 134283265, 134283265, 134283265, 5, 5, 69634, 69634, 71682, 71682, 134283266,
  134283266, 134283266, 134283266, 134283266, 134283266, 134283266, 134283266, 134283265, 134283265, 134283265,
  134283265, 134283265, 134283265, 134283265, 134283265, 134283266, 134283266, 134283266, 134283266, 134283266,
  134283266, 134283266, 134283266, 138412097, 138412097, 138412097, 138412097, 141557825, 141557825, 141557825,
  141557825, 69634, 69634, 71682, 71682, 134283266, 134283266, 134283266, 134283266, 134283266, 134283266, 134283266,
  134283266, 134283265, 134283265, 134283265, 134283265, 134283265, 134283265, 134283265, 134283265, 65537, 65537, 5,
  5, 71681, 69633, 65537, 65537, 65537, 65537, 71682, 69634, 141558849, 138413121, 134283265, 134283265, 141557825,
  138412097, 71, 69, 131142, 131141, 1, 67108993, 69337089, 67239937, 65, 67108993, 69337089, 67239937, 65, 134283266,
  134284289, 134284289, 65538, 134283266, 134284289, 134284289, 65538, 134283265, 134283265, 134283265, 65537,
  134283265, 134283265, 134283265, 65537, 3, 140509249, 135266369, 210587615297, 210587615297, 207366389825,
  207366389825, 135331841, 206292713473, 206292713473, 206292713473, 134283265, 206292713473, 206292713473,
  206292713473, 134283265, 66561, 134283265, 134283265, 206292713473, 206292713473, 206292713473, 206292713473,
  134283265, 206292713473, 206292713473, 206292713473, 134283265, 206292713473, 206292713473, 206292713473, 134283265,
  65537, 2, 67108994, 137506259969, 144083845121, 138715136001, 68289537, 66, 67108994, 137506259969, 144083845121,
  138715136001, 68289537, 66, 134283265, 206292713473, 206292713473, 206292713473, 134283265, 65537, 134283265,
  206292713473, 206292713473, 206292713473, 134283265, 65537, 65537, 65537, 65, 65537, 1, 131137, 131137, 201457729,
  131137, 131137, 65, 134283265, 134283265, 206292713473, 134283265, 134283265, 65537, 131137, 131137, 201457729,
  131137, 131137, 65, 134283265, 134283265, 206292713473, 134283265, 134283265, 65537, 134283265, 134283265,
  206292713473, 134283265, 134283265, 65537, 1, 67108993, 65, 67108993, 65, 134283266, 65538, 134283266, 65538, 65537,
  65537, 68288513, 67108993, 68288513, 67108993, 134284289, 134283266, 134284289, 134283266, 134283265, 134283265,
  134283265, 134283265, 65537, 65537, 134283265, 65537, 65537, 65537, 134283265, 134283265, 134283265, 134283265,
  134283265, 134283265, 134283265, 134283265, 134283265, 134283265, 206292713473, 206292713473, 206292713473,
  206292713473, 134283265, 206292713473, 206292713473, 206292713473, 134283265, 206292713473, 206292713473,
  206292713473, 134283265, 65537, 134283265, 206292713473, 206292713473, 206292713473, 134283265, 65537, 134283265,
  206292713473, 206292713473, 206292713473, 134283265, 65537, 134283265, 134283265, 206292713473, 134283265,
  134283265, 65537, 134283265, 65537, 134283265, 65537, 134283265, 134283265, 134283265, 134283265, 134283265,
  134283265, 134283265, 134283265, 65537, 65537, 134283265, 65537, 65537, 65537, 134283265, 134283265, 134283265,
  134283265, 134283265, 134283265, 134283265, 134283265, 134283265, 134283265, 206292713473, 206292713473,
  206292713473, 206292713473, 134283265, 206292713473, 206292713473, 206292713473, 134283265, 206292713473,
  206292713473, 206292713473, 134283265, 65537, 134283265, 206292713473, 206292713473, 206292713473, 134283265, 65537,
  134283265, 206292713473, 206292713473, 206292713473, 134283265, 65537, 134283265, 134283265, 206292713473,
  134283265, 134283265, 65537, 134283265, 65537, 134283265, 65537, 134283265, 134283265, 134283265, 134283265,
  134283265, 134283265, 134283265, 134283265, 65537, 65537, 134283265, 65537, 65537, 65537, 138412097, 138412097,
  138412097, 138412097, 141557825, 141557825, 141557825, 141557825, 134283265, 134283265, 206292713473, 206292713473,
  206292713473, 206292713473, 134283265, 206292714497, 206293762049, 206293762049, 134284289, 206292714497,
  206293762049, 206293762049, 134284289, 69633, 134283265, 206292713473, 206292713473, 206292713473, 134283265, 65537,
  134283265, 206292713473, 206292713473, 206292713473, 134283265, 65537, 134283265, 134283265, 206292713473,
  134283265, 134283265, 65537, 134283266, 65538, 134283266, 65538, 134284289, 134283266, 134284289, 134283266,
  134283265, 134283265, 134283265, 134283265, 65537, 65537, 134283265, 65537, 65537, 65537, 138412097, 138412097,
  138412097, 138412097, 141557825, 141557825, 141557825, 141557825, 134283265, 134283265, 206292713473, 206292713473,
  206292713473, 206292713473, 134283265, 206292714497, 206293762049, 206293762049, 134284289, 206292714497,
  206293762049, 206293762049, 134284289, 69633, 134283265, 206292713473, 206292713473, 206292713473, 134283265, 65537,
  134283265, 206292713473, 206292713473, 206292713473, 134283265, 65537, 134283265, 134283265, 206292713473,
  134283265, 134283265, 65537, 134283266, 65538, 134283266, 65538, 134284289, 134283266, 134284289, 134283266, 65537,
  65537, 5, 5, 69633, 71681, 134283265, 134283265, 134283265, 134283265, 281681269424129, 134283265, 134283265,
  134283265, 134283265, 134283265, 134283265, 134283265, 134283265, 281612617056257, 134283265, 134283265, 134283265,
  134283265, 134283265, 134283265, 134283265, 134283265, 69634, 69634, 71682, 71682, 134283266, 134283266, 134283266,
  134283266, 134283266, 134283266, 134283266, 134283266, 134283265, 134283265, 134283265, 134283265, 134283265,
  134283265, 134283265, 134283265, 134283266, 134283266, 134283266, 134283266, 134283266, 134283266, 134283266,
  134283266, 134283265, 134283265, 134283265, 134283265, 134283265, 134283265, 134283265, 134283265, 69633, 71681,
  65537, 65537, 65537, 65537, 69634, 69634, 71682, 71682, 134283266, 134283266, 134283266, 134283266, 134283266,
  134283266, 134283266, 134283266, 138412097, 138412097, 138412097, 138412097, 141557825, 141557825, 141557825,
  141557825, 281681269424129, 134283265, 134283265, 134283265, 134283265, 134283265, 134283265, 134283265, 134283265,
  281612617056257, 134283265, 134283265, 134283265, 134283265, 134283265, 134283265, 134283265, 134283265, 69, 71,
  131141, 131142, 68609, 68610, 69634, 69634, 65537, 65537, 69634, 69634, 65538, 65538, 69633, 69633, 65537, 65537,
  65537, 65537, 67585, 135331841, 134283265, 69633, 134283265, 134283265, 65537, 65537, 2, 2, 65537, 70385665,
  74579969, 70386689, 74580993, 68719673473, 68719673473, 138478594, 138478594, 210588663873, 210588663873,
  206292713473, 206292713473, 134283265, 134283265, 134283265, 134283265, 206292713473, 206292713473, 206293762049,
  206293762049, 134217793, 138477569, 134284289, 134284289, 210587615297, 210587615297, 66561, 65537, 70658, 65537,
  65537, 138413121, 134283265, 65537, 65537, 2, 2, 2, 2, 69634, 69634, 66562, 66562, 65537, 65537, 65537, 65537, 66,
  66, 65537, 65537, 69634, 65537, 2, 2, 2, 2, 69338113, 67240961, 69338113, 67240961, 134283265, 134283265, 134283265,
  134283265, 1, 67108993, 67239937, 69337089, 65, 67108993, 67239937, 69337089, 65, 134283266, 134284289, 134284289,
  65538, 134283266, 134284289, 134284289, 65538, 134283265, 134283265, 134283265, 65537, 134283265, 134283265,
  134283265, 65537, 3, 140509249, 135266369, 135331841, 210587615297, 207366389825, 210587615297, 207366389825,
  206292713473, 206292713473, 206292713473, 134283265, 206292713473, 206292713473, 206292713473, 134283265, 66561,
  134283265, 134283265, 134283265, 206292713473, 206292713473, 206292713473, 206292713473, 206292713473, 206292713473,
  206292713473, 134283265, 206292713473, 206292713473, 206292713473, 134283265, 65537, 2, 67108994, 137506259969,
  138715136001, 144083845121, 68289537, 66, 67108994, 137506259969, 138715136001, 144083845121, 68289537, 66,
  134283265, 206292713473, 206292713473, 206292713473, 134283265, 65537, 134283265, 206292713473, 206292713473,
  206292713473, 134283265, 65537, 65537, 65537, 66, 65537, 1, 201457729, 131137, 131137, 131137, 131137, 65,
  206292713473, 134283265, 134283265, 134283265, 134283265, 65537, 201457729, 131137, 131137, 131137, 131137, 65,
  206292713473, 134283265, 134283265, 134283265, 134283265, 65537, 206292713473, 134283265, 134283265, 134283265,
  134283265, 65537, 1, 67108993, 65, 67108993, 65, 134283266, 65538, 134283266, 65538, 65537, 65537, 68288513,
  67108993, 68288513, 67108993, 134284289, 134283266, 134284289, 134283266, 134283265, 134283265, 134283265,
  134283265, 134283265, 134283265, 134283265, 134283265, 134283265, 134283265, 134283265, 134283265, 65537, 65537,
  134283265, 65537, 65537, 65537, 134283265, 134283265, 134283265, 206292713473, 206292713473, 206292713473,
  206292713473, 206292713473, 206292713473, 206292713473, 134283265, 206292713473, 206292713473, 206292713473,
  134283265, 65537, 134283265, 206292713473, 206292713473, 206292713473, 134283265, 65537, 134283265, 206292713473,
  206292713473, 206292713473, 134283265, 65537, 206292713473, 134283265, 134283265, 134283265, 134283265, 65537,
  134283265, 65537, 134283265, 65537, 134283265, 134283265, 134283265, 134283265, 134283265, 134283265, 134283265,
  134283265, 134283265, 134283265, 134283265, 134283265, 134283265, 134283265, 134283265, 134283265, 65537, 65537,
  134283265, 65537, 65537, 65537, 134283265, 134283265, 134283265, 206292713473, 206292713473, 206292713473,
  206292713473, 206292713473, 206292713473, 206292713473, 134283265, 206292713473, 206292713473, 206292713473,
  134283265, 65537, 134283265, 206292713473, 206292713473, 206292713473, 134283265, 65537, 134283265, 206292713473,
  206292713473, 206292713473, 134283265, 65537, 206292713473, 134283265, 134283265, 134283265, 134283265, 65537,
  134283265, 65537, 134283265, 65537, 134283265, 134283265, 134283265, 134283265, 134283265, 134283265, 134283265,
  134283265, 138412097, 138412097, 138412097, 138412097, 141557825, 141557825, 141557825, 141557825, 65537, 65537,
  134283265, 65537, 65537, 65537, 134283265, 134283265, 134283265, 206292713473, 206292713473, 206292713473,
  206292713473, 206292714497, 206293762049, 206293762049, 134284289, 206292714497, 206293762049, 206293762049,
  134284289, 69633, 134283265, 206292713473, 206292713473, 206292713473, 134283265, 65537, 134283265, 206292713473,
  206292713473, 206292713473, 134283265, 65537, 206292713473, 134283265, 134283265, 134283265, 134283265, 65537,
  134283266, 65538, 134283266, 65538, 134284289, 134283266, 134284289, 134283266, 134283265, 134283265, 134283265,
  134283265, 138412097, 138412097, 138412097, 138412097, 141557825, 141557825, 141557825, 141557825, 65537, 65537,
  134283265, 65537, 65537, 65537, 134283265, 134283265, 134283265, 206292713473, 206292713473, 206292713473,
  206292713473, 206292714497, 206293762049, 206293762049, 134284289, 206292714497, 206293762049, 206293762049,
  134284289, 69633, 134283265, 206292713473, 206292713473, 206292713473, 134283265, 65537, 134283265, 206292713473,
  206292713473, 206292713473, 134283265, 65537, 206292713473, 134283265, 134283265, 134283265, 134283265, 65537,
  134283266, 65538, 134283266, 65538, 134284289, 134283266, 134284289, 134283266, 65537, 65537, 65537, 137363521,
  137364545, 134283265, 134283265, 136314945, 134283265, 70658, 67108994, 67108994, 134283265, 134283265, 65537,
  65537, 65538, 65538, 65537, 65537, 65537, 134283265, 134283265, 1, 5, 65537, 67585, 65537, 65537, 2, 2, 2, 2, 66,
  2114, 66, 2114, 65537, 65537, 65537, 65537, 206292713473, 206292713473, 207366389825, 207366389825, 138477569,
  138477569, 212601012289, 135331841, 138477569, 135331841, 138477569, 206292713473, 206292713473, 206292713473,
  206292713473, 134283265, 134283265, 206292713473, 134283265, 134283265, 134283265, 134283265, 5, 5, 66562, 66561,
  70658, 70657, 65537, 65537, 67239937, 69337089, 67108993, 67108993, 67239937, 69337089, 67108993, 67108993,
  134284289, 134284289, 134283266, 134283266, 134284289, 134284289, 134283266, 134283266, 69634, 69634, 69634, 69634,
  65537, 65537, 68289537, 73532417, 73532417, 73532417, 68289537, 73532417, 73532417, 73532417, 134283265, 134283265,
  139460673, 139460673, 134283265, 134283265, 139460673, 139460673, 134283265, 134283265, 206292713473, 134283265,
  206292713473, 134283265, 134283265, 134283265, 134283265, 134283265, 134283265, 134283265, 134283265, 134283265,
  206292713473, 206292713473, 206292713473, 206292713473, 134283265, 134283265, 206292713473, 134283265, 134283265,
  134283265, 134283265, 134283265, 134283265, 134283265, 134283265, 134283265, 134283265, 134283265, 134283265,
  134283265, 134283265, 134283265, 134283265, 134283265, 134283265, 134283265, 134283265, 134283265, 134283265,
  206292713473, 134283265, 206292713473, 134283265, 134283265, 134283265, 134283265, 134283265, 134284289, 134284289,
  134283265, 134283265, 206292713473, 206292713473, 206292713473, 206225670145, 134283265, 134283265, 206292713473,
  134283265, 134283265, 134283265, 134283265, 134283265, 134283265, 134283265, 134283265, 134283265, 134283265,
  134283265, 134283265, 134283265, 134283265, 134283265, 134283265, 134283265, 134283265, 134283265, 134283265,
  138412097, 138412097, 206292713473, 139460673, 206292713473, 139460673, 134283265, 134283265, 134283265, 134283265,
  134283265, 134283265, 134283266, 134283266, 206293762049, 206293762049, 206292713473, 206292713473, 134284289,
  134284289, 206292648001, 134283265, 134283265, 134283265, 134283265, 134284289, 134284289, 134283266, 134283266,
  134284289, 134284289, 134283266, 134283266, 134283265, 134283265, 140509249, 140509249, 134283265, 134283265,
  140509249, 140509249, 138412097, 138412097, 206292713473, 139460673, 206292713473, 139460673, 134283265, 134283265,
  134283265, 134283265, 134284289, 134284289, 134283266, 134283266, 206293762049, 206293762049, 206292713473,
  206225670145, 134284289, 134284289, 206292648001, 134283265, 134283265, 134283265, 134283265, 134284289, 134284289,
  134283266, 134283266, 134284289, 134284289, 134283266, 134283266, 134283265, 134283265, 140509249, 140509249,
  134283265, 134283265, 140509249, 140509249, 70658, 70657, 66562, 66561, 65537, 65537, 65537, 65537, 65537,
  134283265, 134283265, 69633, 69633, 69634, 69634, 209379786817, 209380835393, 137363521, 137364545, 141557825,
  141558849, 210587615297, 210587615297, 138477570, 138477570, 69634, 69634, 5, 138477569, 138477569, 71681,
  210588663873, 210588663873, 135266369, 206293762049, 206293762049, 138477569, 134283265, 206292713473, 206292713473,
  134283265, 134283265, 206292713473, 206292713473, 134283265, 138477569, 206293762049, 206293762049, 134284289,
  134284289, 210587615297, 210587615297, 134217793, 72706, 72705, 69634, 69634, 65537, 65537, 69634, 69634, 65538,
  65538, 69633, 69633, 65537, 65537, 65537, 65537, 70657, 65537, 65537, 65537, 69634, 65537, 6, 134283266, 134283266,
  134283266, 134283266, 134283266, 134283266, 138413121, 138413121, 65538, 65538, 71435265, 74580993, 71435265,
  71435265, 66, 71435265, 74580993, 71435265, 71435265, 66, 3, 1, 141558849, 141558849, 138413121, 138413121,
  138413121, 140510273, 69634, 66562, 141557825, 141557825, 138412097, 138412097, 134283265, 134283265, 65537, 65537,
  134283265, 134283265, 134283265, 134283265, 134283265, 134283265, 65537, 65537, 3, 138413121, 138413121, 69634,
  69634, 134283265, 134283265, 65537, 65537, 134283265, 134283265, 65537, 65537, 1, 1, 65537, 65537, 65537, 65537, 3,
  1, 140509249, 138412097, 69633, 66561, 134283265, 134283265, 65537, 65537, 134283265, 134283265, 65537, 65537,
  65537, 65537, 67585, 65537, 1, 140510273, 141558849, 66562, 134283265, 141557825, 65537, 134283265, 134283265,
  65537, 65537, 65537, 65537, 65537, 65537, 65537, 1, 134283265, 65537, 134283265, 65537, 1, 137363521, 137363521,
  209379786817, 141557825, 68609, 134284289, 138478594, 210588663873, 134284289, 69634, 134283265, 134283265,
  206292713473, 134283265, 65537, 65537, 65537, 65537, 1, 140509249, 66561, 134283265, 65537, 134283265, 65537, 70657,
  65537, 65537, 65537, 1, 5, 136314945, 134217793, 65537, 67585, 134283265, 134283265, 65537, 65537, 1, 212601012289,
  140509249, 135266369, 138477569, 66561, 206292713473, 134283265, 134283265, 134283265, 65537, 1, 134283265, 65537,
  134283265, 65537, 6, 210587615297, 134283265, 206292713473, 206292713473, 206292713473, 134283265, 207366389825,
  135331841, 207366389825, 135331841, 136314945, 138477569, 210587615297, 138477569, 288072247935041, 207232303169,
  208306044993, 210587615297, 136314945, 212601012289, 135266369, 67585, 206292713473, 134283265, 206292714497,
  206293762049, 206293762049, 134284289, 206292713473, 134283265, 206292713473, 134283265, 134283265, 134284289,
  206292713473, 134283265, 286010663501889, 206225670145, 206225670145, 210588663873, 138412097, 206292648001,
  134283265, 69633, 206292713473, 134283265, 206292713473, 206292713473, 206292713473, 134283265, 206292713473,
  134283265, 206292713473, 134283265, 134283265, 134283265, 206292713473, 134283265, 281681269424129, 206292713473,
  206292713473, 206292713473, 134283265, 206292713473, 134283265, 65537, 1, 67108993, 67239937, 69337089, 67108993,
  67108993, 67108993, 65, 134283266, 134284289, 134284289, 134283266, 134283266, 134283266, 65538, 134283265,
  134283265, 134283265, 134283265, 134283265, 134283265, 65537, 1, 69337089, 67239937, 67108993, 67108993, 67108993,
  67108993, 65, 134284289, 134284289, 134283266, 134283266, 134283266, 134283266, 65538, 134283265, 134283265,
  134283265, 134283265, 134283265, 134283265, 65537, 65537, 65537, 65537, 65537, 1, 5, 138413121, 140510273, 71682,
  69634, 134283265, 134283265, 65537, 65537, 3, 134283265, 65537, 134283265, 65537, 3, 206292713473, 206292713473,
  206292713473, 134283265, 210587615297, 138477569, 207366389825, 135331841, 207366389825, 135331841, 135266369,
  138477569, 210587615297, 138477569, 212601012289, 140509249, 66561, 206292714497, 206293762049, 206293762049,
  134284289, 206292713473, 134283265, 206292713473, 134283265, 206292713473, 134283265, 134283265, 134284289,
  206292713473, 134283265, 206292648001, 134283265, 69633, 206292713473, 206292713473, 206292713473, 134283265,
  206292713473, 134283265, 206292713473, 134283265, 206292713473, 134283265, 134283265, 134283265, 206292713473,
  134283265, 206292713473, 134283265, 65537, 65537, 65537, 2, 134217793, 65537, 138412097, 65537, 134283265, 65537, 1,
  134283265, 134287361, 134290433, 65537, 1, 134283265, 134287361, 134290433, 65537, 65537, 65537, 69, 65537, 65537,
  1, 131141, 65, 134283265, 65537, 65537, 65537, 65537, 65537, 1, 134218817, 1090, 134283265, 65537, 65537, 134283265,
  134283265, 65537, 65537, 67239941, 134283265, 65537, 134283265, 65538, 134283265, 65538, 65, 65537, 65, 65537, 1,
  134283265, 134283265, 134283265, 65537, 67108994, 67108994, 67108994, 66, 67108994, 67108994, 67108994, 66,
  67108994, 67108994, 67108994, 66, 65, 65537, 1, 134283265, 134283265, 134283265, 65537, 67108993, 67108993,
  67108993, 65, 67108994, 67108994, 67108994, 66, 67108994, 67108994, 67108994, 66, 1, 134285313, 134283265,
  206293762049, 206299004929, 134284289, 134289409, 134283265, 67239937, 65537, 1, 134283265, 65537, 1, 65, 65,
  134287361, 134284289, 206296842305, 206293696577, 206292648001, 134217793, 206292713473, 134283265, 65537,
  134283265, 1, 1, 71, 69, 1, 65, 69, 134283265, 134283265, 65537, 134283265, 1, 206293762049, 206299004929,
  134283265, 134283265, 134285313, 67239937, 134284289, 134289409, 65537, 1, 134283265, 65537, 1, 65, 69, 134284289,
  134287361, 206293696577, 206296842305, 206292648001, 134217793, 206292713473, 134283265, 65537, 134283265, 1, 1, 69,
  71, 1, 65, 69, 134283265, 134283265, 65537, 134283265, 69633, 65537, 70657, 2, 65, 70657, 69634, 2, 65537, 65, 8, 8,
  8, 8, 8, 4, 65537, 66, 65537, 1, 65, 70, 1, 70, 65, 1, 138477569, 134283265, 134283265, 134283265, 206292713473,
  206292713473, 206292713473, 134283265, 206292713473, 134283265, 134283265, 134283265, 134283265, 134283265,
  134283265, 206292713473, 134283265, 134283265, 65537, 134283265, 134283265, 134283265, 134283265, 134283265,
  134283265, 206292713473, 206292713473, 206292713473, 134283265, 206292713473, 134283265, 134283265, 134283265,
  134283265, 134283265, 134283265, 206292713473, 134283265, 134283265, 65537, 134283265, 134283265, 134283265,
  134284289, 134284289, 134283265, 65537, 134283265, 134283265, 206292713473, 206292713473, 206292713473,
  206292713473, 134283265, 134283265, 134283265, 134283265, 134283265, 206225670145, 206292713473, 206292713473,
  206292713473, 134283265, 134283265, 65537, 134283265, 65537, 134283265, 65537, 134283265, 134283265, 206292713473,
  206292713473, 206292713473, 206292713473, 134283265, 134283265, 134283265, 134283265, 134283265, 206225670145,
  206292713473, 206292713473, 206292713473, 134283265, 134283265, 65537, 134283265, 65537, 134283265, 134283265,
  134283265, 134283265, 134283265, 134283265, 134283265, 134283265, 134283265, 134283265, 134283265, 134283265, 65537,
  65537, 206293762049, 134284289, 65538, 281612617056257, 210587615297, 134217793, 65537, 65537, 134283265, 65537,
  134283265, 65537, 65537, 65537, 65537, 69633, 1, 65537, 138477569, 134283265, 134283265, 134283265, 206292713473,
  206292713473, 206292713473, 134283265, 206292713473, 134283265, 134283265, 134283265, 134283265, 134283265,
  134283265, 206292713473, 134283265, 134283265, 65537, 134283265, 134283265, 134283265, 134283265, 134283265,
  134283265, 206292713473, 206292713473, 206292713473, 134283265, 206292713473, 134283265, 134283265, 134283265,
  134283265, 134283265, 134283265, 206292713473, 134283265, 134283265, 65537, 134283265, 134283265, 134283265,
  134284289, 134284289, 134283265, 65537, 134283265, 134283265, 206292713473, 206292713473, 206292713473,
  206292713473, 134283265, 134283265, 134283265, 134283265, 134283265, 206225670145, 206292713473, 206292713473,
  206292713473, 134283265, 134283265, 65537, 134283265, 65537, 134283265, 65537, 134283265, 134283265, 206292713473,
  206292713473, 206292713473, 206292713473, 134283265, 134283265, 134283265, 134283265, 134283265, 206225670145,
  206292713473, 206292713473, 206292713473, 134283265, 134283265, 65537, 134283265, 65537, 134283265, 134283265,
  134283265, 134283265, 134283265, 134283265, 134283265, 134283265, 134283265, 134283265, 134283265, 134283265, 65537,
  65537, 206293762049, 134284289, 65538, 281612617056257, 210587615297, 134217793, 65537, 65537, 134283265, 65537,
  134283265, 65537, 65537, 65537, 65537, 69633, 1, 65537, 138412097, 134283265, 141557825, 138412097, 206292713473,
  206292713473, 206292713473, 134283265, 206292648001, 134283265, 134284289, 134284289, 134283266, 134283265,
  134283265, 206292713473, 134283265, 134283265, 65537, 134283265, 134283265, 134283265, 134283265, 141557825,
  138412097, 206292713473, 206292713473, 206292713473, 134283265, 206292648001, 134283265, 134284289, 134284289,
  134283266, 134283265, 134283265, 206292713473, 134283265, 134283265, 65537, 134283265, 134283265, 134283265,
  134284289, 134284289, 134283265, 65537, 134283265, 134283265, 206292713473, 206292714497, 206293762049,
  206293762049, 134284289, 134283265, 134283265, 134283265, 134283265, 206225670145, 206292713473, 206292713473,
  206292713473, 134283265, 134283265, 65537, 134283266, 65538, 134283265, 65537, 134283265, 134283265, 206292713473,
  206292714497, 206293762049, 206293762049, 134284289, 134283265, 134283265, 134283265, 134283265, 206225670145,
  206292713473, 206292713473, 206292713473, 134283265, 134283265, 65537, 134283266, 65538, 134283266, 134283266,
  134284289, 140509249, 140509249, 134283266, 134283266, 134284289, 139460673, 139460673, 141557825, 138412097, 65537,
  65537, 210588663873, 138478594, 69634, 286010663501889, 210588663873, 138412097, 69633, 65537, 138412097, 65537,
  141557825, 65537, 65537, 65537, 65537, 69634, 5, 69633]

def energy_CCSD_SD_1_2 : List Nat := [
  1, 1, 1, 1, 1, 1, 1, 1, 5, 5, 2, 65537, 65, 65, 131137, 2228289, 1, 65, 65537, 134217793, 65, 65537, 1, 1, 1, 1, 1,
  1, 1, 1, 1, 1, 1, 1, 1, 1, 1, 1, 1, 1, 5, 5, 2, 2, 65537, 65, 65, 65, 65, 131137, 2228289, 5, 5, 2, 2, 65537, 65,
  65, 65, 65, 131137, 2228289, 1, 65537, 65, 131137, 1, 65537, 65537, 65, 131137, 65, 65537, 65, 65537]

def amps_CCSD_SD_1_2 : List Nat := [
  1, 1, 1, 1, 1, 1, 1, 1, 1, 1, 1, 1, 1, 1, 1, 1, 1, 1, 1, 1, 1, 1, 1, 1, 1, 1, 1, 1, 1, 1, 65537, 65537, 69633,
  138412097, 138412097, 213675737217, 138412097, 134283265, 65537, 69633, 138413121, 140510273, 134283265, 134283265,
  136314945, 134283265, 65537, 69633, 2, 2, 139460673, 135266369, 65537, 65537, 1, 1, 69633, 71681, 65537, 65537,
  65537, 65537, 69634, 69634, 65, 65537, 65537, 65537, 5, 5, 69633, 71681, 65537, 65537, 69, 71, 65537, 65537,
  134284289, 134287361, 134283265, 134283265, 134283265, 134283265, 134283265, 134283265, 134217793, 134217795, 1093,
  1095, 1, 67108993, 67239937, 69337089, 65, 134283266, 134284289, 134284289, 65538, 134283265, 134283265, 134283265,
  65537, 134283265, 134283265, 134283265, 65537, 134283265, 134283265, 134285313, 65537, 134283265, 134283265,
  134283265, 65537, 135331841, 135331841, 135333889, 66561, 134283265, 134287361, 134290433, 65537, 135331841,
  135335937, 135339009, 66561, 2, 2, 66, 66, 65537, 65537, 67108994, 71435265, 74580993, 66, 67108994, 71435265,
  74580993, 66, 68157570, 68157570, 68157570, 68157570, 3, 1, 69633, 66561, 69, 66, 65537, 65537, 1, 134217793, 65537,
  134283265, 65537, 131137, 65, 135331841, 66561, 65, 65537, 65537, 65537, 65537, 65537, 5, 5, 69634, 69634, 65537,
  65537, 69633, 71681, 65537, 65537, 66561, 70657, 67108993, 67108993, 134283266, 134283266, 69634, 69634, 67108994,
  67108994, 134283265, 134283265, 69633, 71681, 135331841, 138477569, 1, 5, 65537, 67585, 65537, 65537, 1, 134283265,
  134283265, 134283265, 65537, 134283265, 134283265, 134283265, 65537, 1, 134283265, 134283265, 134283265, 134283265,
  135331841, 138477569, 206292648001, 207366389825, 210587615297, 135266369, 66561, 134283265, 67239937, 134289409,
  134289409, 134284289, 134289409, 206292713473, 206293762049, 206299004929, 134284289, 65538, 135331841, 135331841,
  135337985, 135337985, 135332865, 135337985, 207366455297, 207367503873, 207372746753, 135332865, 66562, 65, 65537,
  65537, 65537, 65537, 1, 1, 71681, 69633, 65537, 65537, 65537, 65537, 71, 69, 65537, 65537, 65541, 65538, 1,
  134283265, 134283265, 134283265, 65537, 65537, 65537, 1, 134283265, 65537, 135331841, 66561, 135331841, 66561,
  69633, 134283265, 65537, 140509249, 134283265, 5, 5, 71682, 69634, 134283266, 134283266, 134283265, 134283265,
  71682, 69634, 71681, 65537, 65537, 65537, 138412097, 134283265, 3, 134283265, 65537, 134283265, 65537, 207366389825,
  207366389825, 210587615297, 138477569, 212601012289, 140509249, 206292713473, 206292713473, 206292713473, 134283265,
  206292713473, 134283265, 65537, 65537, 69337089, 67239937, 67108993, 134284289, 134284289, 134283266, 65537, 65537,
  65537, 65537, 1, 131137, 131137, 201457729, 131137, 131137, 65, 134283265, 134283265, 206292713473, 134283265,
  134283265, 65537, 1, 5, 65537, 67585, 65537, 65537, 67108994, 68289537, 73532417, 134283265, 134283265, 134283265,
  134283265, 134283265, 134283265, 206292713473, 206292713473, 206292713473, 134283265, 206292713473, 134283265,
  134283265, 134283265, 134283265, 134283265, 134283265, 206292713473, 134283265, 134283265, 65537, 134283265,
  134283265, 134283265, 134283265, 141557825, 138412097, 206292713473, 206292713473, 206292713473, 134283265,
  206292648001, 134283265, 134284289, 134284289, 134283266, 134283265, 134283265, 206292713473, 134283265, 134283265,
  65537, 134283265, 134283265, 134283265, 65, 67, 65537, 65537, 65537, 65537, 66561, 65537, 1, 1, 65537, 65537,
  138413121, 140510273, 134283265, 134283265, 65537, 65537, 65537, 65537, 65537, 65537, 65537, 136314945, 134283265,
  137364545, 134284289, 134283265, 1, 5, 71682, 69634, 65537, 65537, 210587615297, 206292713473, 206292713473,
  206292713473, 134283265, 135266369, 135331841, 207366389825, 138477569, 135331841, 206292713473, 206292713473,
  206292713473, 206292713473, 134283265, 134283265, 134283265, 206292713473, 134283265, 134283265, 2, 137506259969,
  138715136001, 144083845121, 68289537, 67108994, 66, 206292713473, 206292713473, 206292713473, 134283265, 134283265,
  65537, 1, 67108993, 65, 134283266, 65538, 134283265, 65537, 134283265, 134283265, 206292713473, 206292713473,
  206292713473, 206292713473, 134283265, 134283265, 134283265, 206225670145, 134283265, 134283265, 206292713473,
  206292713473, 206292713473, 134283265, 134283265, 65537, 134283265, 65537, 134283265, 65537, 134283265, 134283265,
  206292713473, 206292714497, 206293762049, 206293762049, 134284289, 134283265, 134283265, 206292713473, 134283265,
  134283265, 206292713473, 206292713473, 206292713473, 134283265, 134283265, 65537, 134283266, 65538, 65537,
  138477569, 134283265, 134283265, 134283265, 134283265, 134283265, 134283265, 134283266, 134283266, 140509249,
  140509249, 134284289, 6, 2, 141558849, 138413121, 65538, 65538, 69633, 69634, 69634, 5, 137363521, 68609, 5,
  212600946817, 138478593, 72705, 4, 282780646899777, 206292713473, 134283265, 65537, 6, 69633, 65538, 134283266, 2,
  71681, 65538, 134283266, 65537, 65537, 65537, 65537, 134283265, 134283265, 1, 134218817, 1090, 134283265, 65537,
  65537, 134283265, 65537, 65537, 134283265, 65537, 134283265, 65538, 65, 65537, 65537, 1, 134283265, 134283265,
  134283265, 65537, 67108994, 67108994, 67108994, 66, 67108994, 67108994, 67108994, 66, 5, 5, 70657, 66561, 65537,
  65537, 65537, 65537, 1, 134283265, 134285313, 206293762049, 206299004929, 134283265, 67239937, 134289409, 134284289,
  65537, 65, 65537, 65537, 65537, 65537, 65537, 206158562369, 206158565441, 134217794, 134217797, 134217793,
  206292713473, 206292713473, 134283265, 134283265, 134283265, 1, 134283265, 65537, 1, 134284289, 134287361,
  206293696577, 206296842305, 206292648001, 134217793, 134283265, 134283265, 206292713473, 134283265, 65537, 65,
  65537, 65537, 1, 134283265, 134283265, 134283265, 65537, 65537, 135266369, 65538, 65537, 65537, 65537, 206158562369,
  206158567489, 134217799, 134217794, 134217793, 206292713473, 206292713473, 134283265, 134283265, 134283265, 1,
  134283265, 65537, 134283265, 65537, 131137, 65, 206292713473, 134283265, 206292713473, 134283265, 1, 206158561345,
  206158565441, 206158567489, 134217793, 131137, 201457729, 131137, 65, 137640345601, 137640345601, 137640345601,
  67239937, 134283265, 206292713473, 134283265, 65537, 1, 131137, 65, 134283265, 65537, 134283265, 206292713473,
  206292713473, 134283265, 134283265, 134283265, 65537, 206292713473, 206292713473, 134283265, 134283265, 134283265,
  206292713473, 134283265, 206292713473, 206292713473, 206292713473, 134283265, 134283265, 206292713473, 134283265,
  65537, 134283265, 65537, 134283265, 137640345601, 137640345601, 67239937, 67239937, 134283265, 65537, 137640345601,
  137640345601, 67239937, 67239937, 134283265, 206292713473, 134283265, 137640345601, 137640345601, 137640345601,
  67239937, 134283265, 206292713473, 134283265, 65537, 134283265, 65537, 3, 1, 1183809, 1185857, 1093, 1090, 1,
  135331841, 135333889, 135331841, 135331841, 135337985, 135332865, 66561, 1, 5, 1181761, 1179713, 1089, 1091,
  207366455297, 207366455297, 207366455297, 135331841, 207370584129, 207367438401, 135332865, 135335937, 65, 2, 65537,
  70657, 66561, 66561, 70657, 69634, 8, 72705, 65537, 66, 1, 65537, 65537, 65, 1, 1, 1, 1, 1, 1, 1, 1, 1, 1, 1, 1, 1,
  1, 1, 1, 1, 1, 1, 1, 1, 1, 1, 1, 1, 1, 1, 1, 1, 1, 1, 1, 1, 1, 1, 1, 1, 1, 1, 1, 1, 1, 1, 1, 1, 1, 1, 1, 1, 1, 1, 1,
  1, 1, 1, 1, 1, 1, 1, 1, 1, 1, 1, 1, 1, 1, 1, 1, 1, 1, 1, 1, 1, 1, 1, 1, 65537, 65537, 69633, 65537, 69633,
  138412097, 213675737217, 213674688641, 206292713473, 206292713473, 208306044993, 282780646899777, 281681269424129,
  65537, 69633, 2, 2, 139460673, 139461697, 135266369, 135267393, 65537, 65538, 65537, 65538, 1, 1, 65537, 65537,
  71681, 69633, 65537, 65537, 69634, 69634, 69634, 69634, 65537, 65537, 134217793, 134283265, 1, 140510273, 66562,
  134283265, 65537, 1179713, 1089, 135266369, 66561, 65, 65537, 65537, 65537, 65537, 65537, 65537, 65537, 134283265,
  138714087425, 138714087425, 206292713473, 206292713473, 67239937, 67239937, 134283265, 134283265, 65537, 65537, 5,
  5, 71681, 69633, 65537, 65537, 65537, 65537, 135331841, 138477569, 134283265, 134285313, 201461825, 201463873,
  206292713473, 206292713473, 69634, 69634, 69634, 69634, 65537, 65537, 65537, 65537, 70657, 70658, 66561, 66562,
  65537, 65537, 71682, 69634, 65537, 65537, 71, 69, 65537, 65537, 65537, 65537, 71, 69, 66561, 66561, 1, 134283265,
  134283265, 134283265, 65537, 134283265, 134283265, 134283265, 65537, 67108993, 67239937, 69337089, 65, 134283265,
  134283265, 134283265, 65537, 135331841, 135331841, 135333889, 66561, 67108994, 71435265, 74580993, 66, 2, 2, 2, 2,
  138413121, 138413121, 140510273, 140510273, 134283265, 134283265, 134283265, 134283265, 67108994, 71435265,
  74580993, 66, 67108994, 71435265, 74580993, 66, 65, 65537, 65537, 65537, 65537, 65537, 69633, 65537, 67240961,
  67240961, 134283265, 134283265, 134283265, 134283265, 65537, 65537, 5, 5, 71681, 69633, 65537, 65537, 65537, 65537,
  135331841, 138477569, 134283265, 134285313, 134283265, 134283265, 66561, 66562, 70657, 70658, 65537, 65537, 65537,
  65537, 71, 69, 65537, 65537, 131139, 131137, 67239937, 67239937, 134283265, 134283265, 201461825, 201458753,
  137640345601, 137640345601, 71, 69, 66561, 66561, 1, 134283265, 134283265, 134283265, 65537, 134283265, 134283265,
  134283265, 65537, 67108993, 67239937, 69337089, 65, 134283265, 134283265, 134283265, 65537, 135331841, 135331841,
  135333889, 66561, 67108993, 71434241, 74579969, 65, 3, 1, 65537, 65537, 65537, 65537, 69633, 66561, 69, 66, 65537,
  65537, 1, 134217793, 65537, 134283265, 65537, 131137, 65, 135331841, 66561, 65, 65537, 65537, 65537, 65537, 65537,
  65537, 65537, 65537, 67108994, 68289537, 67108994, 68289537, 134283265, 134283265, 134283265, 134283265, 65537,
  65537, 65537, 1, 5, 71681, 69633, 65537, 65537, 65537, 65537, 73532417, 73532417, 73532417, 68289537, 73532417,
  73532417, 73532417, 68289537, 139460673, 139460673, 134283265, 134283265, 139460673, 139460673, 134283265,
  134283265, 65538, 65538, 67586, 67586, 65537, 65537, 65537, 65537, 71, 69, 1, 73532417, 73532417, 137506259969,
  138715136001, 144083845121, 68289537, 67108994, 67108994, 68289537, 73532417, 1090, 139460673, 139460673,
  206292713473, 206292713473, 206292713473, 134283265, 134283265, 134283265, 134283265, 134283265, 65537, 134283265,
  134283265, 206292713473, 206292713473, 206292713473, 134283265, 134283265, 134283265, 134283265, 134283265, 65537,
  134283265, 134283265, 206292648001, 207366389825, 210587615297, 135266369, 134283265, 134283265, 135331841,
  138477569, 66561, 134289409, 134289409, 206292713473, 206293762049, 206299004929, 134284289, 134283265, 67239937,
  134284289, 134289409, 65538, 135337985, 135337985, 207366455297, 207367503873, 207372746753, 135332865, 135331841,
  135331841, 135332865, 135337985, 66562, 65, 65537, 65537, 65537, 65537, 69633, 65537, 66561, 65537, 65537, 1, 1,
  71681, 69633, 65537, 65537, 65537, 65537, 65537, 65537, 1, 134283265, 134283265, 134283265, 65537, 65537, 65537,
  65537, 65537, 1, 134283265, 65537, 134283265, 65537, 135331841, 66561, 135331841, 66561, 135331841, 66561, 65537,
  65537, 69633, 65537, 69633, 138412097, 134283265, 208306044993, 282780646899777, 281681269424129, 65537, 69633, 2,
  2, 139460673, 139461697, 135266369, 135267393, 65537, 65538, 65537, 65538, 1, 1, 69633, 71681, 65537, 65537, 65537,
  65537, 65537, 65537, 69634, 69634, 69634, 69634, 65537, 65537, 138413121, 134283265, 65537, 1, 136314945, 67585,
  134283265, 65537, 134283265, 65537, 134283265, 65537, 138413121, 138413121, 69634, 69634, 134283265, 134283265,
  65537, 65537, 1183809, 1093, 139461697, 70658, 2, 2, 2, 2, 66, 66, 138413121, 138413121, 138412097, 138412097,
  65537, 65537, 67240961, 66, 67240961, 66, 134283265, 65537, 134283265, 65537, 67108994, 71435265, 74580993, 66,
  67108994, 71435265, 74580993, 66, 3, 1, 65537, 65537, 65537, 65537, 69633, 66561, 69, 66, 65537, 65537, 1,
  134217793, 65537, 134283265, 65537, 131137, 65, 135331841, 66561, 65, 65537, 65537, 65537, 65537, 65537, 69633,
  65537, 65537, 67108994, 68289537, 67108994, 68289537, 134283265, 134283265, 134283265, 134283265, 69634, 65537,
  65537, 138715136001, 73532417, 138715136001, 73532417, 206292713473, 134283265, 206292713473, 134283265, 5, 5,
  69634, 69634, 69634, 69634, 65537, 65537, 66561, 66562, 70657, 70658, 65537, 65537, 69634, 69634, 69634, 69634,
  65537, 65537, 69634, 69634, 71682, 71682, 65537, 65537, 65537, 65537, 1, 5, 71681, 69633, 65537, 65537, 71, 69, 1,
  137506258945, 138714087425, 144082796545, 68288513, 67108993, 67108993, 68288513, 67108993, 67108993, 73531393,
  1089, 206292713473, 206292713473, 206292713473, 134283265, 134283265, 134283265, 134283265, 140509249, 140509249,
  134283265, 65537, 206292713473, 206292713473, 206292713473, 134283265, 134283265, 134283265, 134283265, 134283265,
  134283265, 134283265, 65537, 206292648001, 207366389825, 210587615297, 135266369, 134283265, 134283265, 135331841,
  134283265, 134283265, 138477569, 66561, 206292713473, 206293762049, 206299004929, 134284289, 134283265, 67239937,
  134284289, 134289409, 134289409, 134289409, 65538, 207366455297, 207367503873, 207372746753, 135332865, 135331841,
  135331841, 135332865, 135337985, 135337985, 135337985, 66562, 65, 65537, 65537, 65537, 65537, 69633, 65537, 66561,
  65537, 65537, 1, 134283265, 134283265, 134283265, 65537, 66561, 65537, 70657, 65537, 65537, 138412097, 134283265,
  65537, 2, 2, 2, 2, 4162, 1090, 4162, 1090, 65537, 65537, 65537, 65537, 5, 5, 71682, 71682, 69634, 69634, 141558849,
  141558849, 141558849, 141558849, 138413121, 138413121, 138413121, 138413121, 141557825, 141557825, 141557825,
  141557825, 138412097, 138412097, 138412097, 138412097, 141558849, 141558849, 141558849, 141558849, 138413121,
  138413121, 138413121, 138413121, 141557825, 141557825, 141557825, 141557825, 138412097, 138412097, 138412097,
  138412097, 71681, 69633, 65537, 65537, 65537, 65537, 71682, 71682, 69634, 69634, 141558849, 141558849, 141558849,
  141558849, 138413121, 138413121, 138413121, 138413121, 134283265, 134283265, 134283265, 134283265, 134283265,
  134283265, 134283265, 134283265, 71682, 69634, 141558849, 138413121, 134283265, 134283265, 141557825, 138412097, 71,
  69, 134217795, 134217793, 65537, 65537, 2, 2, 2, 2, 71435265, 73532417, 71435265, 73532417, 134283265, 134283265,
  134283265, 134283265, 66, 66, 65537, 65537, 1, 67108993, 69337089, 67239937, 65, 67108993, 69337089, 67239937, 65,
  134283266, 134284289, 134284289, 65538, 134283266, 134284289, 134284289, 65538, 134283265, 134283265, 134283265,
  65537, 134283265, 134283265, 134283265, 65537, 3, 140509249, 135266369, 135331841, 207366389825, 210587615297,
  207366389825, 210587615297, 206292713473, 206292713473, 206292713473, 134283265, 206292713473, 206292713473,
  206292713473, 134283265, 66561, 134283265, 134283265, 134283265, 206292713473, 206292713473, 206292713473,
  206292713473, 206292713473, 206292713473, 206292713473, 134283265, 206292713473, 206292713473, 206292713473,
  134283265, 65537, 2, 67108994, 137506259969, 144083845121, 138715136001, 68289537, 66, 67108994, 137506259969,
  144083845121, 138715136001, 68289537, 66, 134283265, 206292713473, 206292713473, 206292713473, 134283265, 65537,
  134283265, 206292713473, 206292713473, 206292713473, 134283265, 65537, 65537, 65537, 65, 65537, 1, 201457729,
  131137, 131137, 131137, 131137, 65, 206292713473, 134283265, 134283265, 134283265, 134283265, 65537, 201457729,
  131137, 131137, 131137, 131137, 65, 206292713473, 134283265, 134283265, 134283265, 134283265, 65537, 206292713473,
  134283265, 134283265, 134283265, 134283265, 65537, 1, 67108993, 65, 67108993, 65, 134283266, 65538, 134283266,
  65538, 65537, 65537, 68288513, 67108993, 68288513, 67108993, 134284289, 134283266, 134284289, 134283266, 134283265,
  134283265, 134283265, 134283265, 65537, 65537, 134283265, 65537, 65537, 65537, 134283265, 134283265, 134283265,
  134283265, 134283265, 134283265, 134283265, 134283265, 134283265, 134283265, 134283265, 206292713473, 206292713473,
  206292713473, 206292713473, 206292713473, 206292713473, 206292713473, 134283265, 206292713473, 206292713473,
  206292713473, 134283265, 65537, 134283265, 206292713473, 206292713473, 206292713473, 134283265, 65537, 134283265,
  206292713473, 206292713473, 206292713473, 134283265, 65537, 206292713473, 134283265, 134283265, 134283265,
  134283265, 65537, 134283265, 65537, 134283265, 65537, 134283265, 134283265, 134283265, 134283265, 134283265,
  134283265, 134283265, 134283265, 65537, 65537, 134283265, 65537, 65537, 65537, 134283265, 134283265, 134283265,
  134283265, 134283265, 134283265, 134283265, 134283265, 134283265, 134283265, 134283265, 206292713473, 206292713473,
  206292713473, 206292713473, 206292713473, 206292713473, 206292713473, 134283265, 206292713473, 206292713473,
  206292713473, 134283265, 65537, 134283265, 206292713473, 206292713473, 206292713473, 134283265, 65537, 134283265,
  206292713473, 206292713473, 206292713473, 134283265, 65537, 206292713473, 134283265, 134283265, 134283265,
  134283265, 65537, 134283265, 65537, 134283265, 65537, 134283265, 134283265, 134283265, 134283265, 134283265,
  134283265, 134283265, 134283265, 65537, 65537, 134283265, 65537, 65537, 65537, 141557825, 141557825, 141557825,
  141557825, 138412097, 138412097, 138412097, 138412097, 134283265, 134283265, 134283265, 206292713473, 206292713473,
  206292713473, 206292713473, 206292714497, 206293762049, 206293762049, 134284289, 206292714497, 206293762049,
  206293762049, 134284289, 69633, 134283265, 206292713473, 206292713473, 206292713473, 134283265, 65537, 134283265,
  206292713473, 206292713473, 206292713473, 134283265, 65537, 206292713473, 134283265, 134283265, 134283265,
  134283265, 65537, 134283266, 65538, 134283266, 65538, 134284289, 134283266, 134284289, 134283266, 134283265,
  134283265, 134283265, 134283265, 65537, 65537, 134283265, 65537, 65537, 65537, 141557825, 141557825, 141557825,
  141557825, 138412097, 138412097, 138412097, 138412097, 134283265, 134283265, 134283265, 206292713473, 206292713473,
  206292713473, 206292713473, 206292714497, 206293762049, 206293762049, 134284289, 206292714497, 206293762049,
  206293762049, 134284289, 69633, 134283265, 206292713473, 206292713473, 206292713473, 134283265, 65537, 134283265,
  206292713473, 206292713473, 206292713473, 134283265, 65537, 206292713473, 134283265, 134283265, 134283265,
  134283265, 65537, 134283266, 65538, 134283266, 65538, 134284289, 134283266, 134284289, 134283266, 65537, 65537,
  65537, 137364545, 137363521, 134283265, 134283265, 136314945, 134283265, 65537, 138413121, 138413121, 138412097,
  138412097, 66561, 65537, 69337089, 67239937, 67108993, 67108993, 69337089, 67239937, 67108993, 67108993, 134284289,
  134284289, 134283266, 134283266, 134284289, 134284289, 134283266, 134283266, 65537, 65537, 65537, 65537, 65537,
  65537, 65537, 134283265, 134283265, 207366389825, 206292713473, 206292713473, 135331841, 135331841, 138477569,
  138477569, 207232303169, 138477569, 138477569, 212601012289, 206292713473, 206292713473, 206292713473, 134283265,
  134283265, 134283265, 134283265, 206225670145, 134283265, 134283265, 206292713473, 206292713473, 206292713473,
  134283265, 134283265, 134283265, 134283265, 134283265, 134283265, 134283265, 134283265, 134283265, 134283265,
  134283265, 134283265, 134283265, 134283265, 134283265, 134283265, 134283265, 134283265, 134283265, 134283265,
  134283265, 134283265, 134283265, 134283265, 206292713473, 206292713473, 206292713473, 134283265, 134283265,
  134283265, 134283265, 206292713473, 134283265, 134283265, 206292713473, 206292713473, 206292713473, 134283265,
  134283265, 134283265, 134283265, 134283265, 134283265, 134283265, 134283265, 134283265, 134283265, 134283265,
  134283265, 134284289, 134284289, 134283265, 134283265, 134283265, 134283265, 134283265, 134283265, 134283265,
  134283265, 134283265, 134283265, 206292713473, 206292713473, 206292713473, 134283265, 134283265, 134283265,
  134283265, 206225670145, 134283265, 134283265, 206292713473, 206292713473, 206292713473, 134283265, 134283265,
  134283265, 134283265, 140509249, 140509249, 134283265, 134283265, 140509249, 140509249, 134283265, 134283265,
  134283265, 134283265, 138412097, 138412097, 134284289, 134284289, 134283266, 134283266, 134284289, 134284289,
  134283266, 134283266, 206292713473, 206293762049, 206293762049, 134283265, 134283265, 134283265, 134283265,
  206292713473, 134284289, 134284289, 206292648001, 206292713473, 206292713473, 134283265, 134283265, 134283265,
  134283265, 140509249, 140509249, 134283265, 134283265, 140509249, 140509249, 134283265, 134283265, 134284289,
  134284289, 138412097, 138412097, 134284289, 134284289, 134283266, 134283266, 134284289, 134284289, 134283266,
  134283266, 206292713473, 206293762049, 206293762049, 134283265, 134283265, 134283265, 134283265, 206225670145,
  134284289, 134284289, 206292648001, 72706, 72705, 69634, 69634, 65537, 65537, 69634, 69634, 65538, 65538, 69633,
  69633, 65537, 65537, 65537, 65537, 69633, 134283265, 134283265, 69633, 69633, 141557826, 141558850, 137363522,
  137364546, 134283265, 134283265, 69634, 69634, 5, 138477569, 138477569, 71681, 210588663873, 210588663873,
  135266369, 210587615297, 210587615297, 134217793, 206292713473, 206292713473, 134283265, 134283265, 134283265,
  206292713473, 206292713473, 134283265, 206293762049, 206293762049, 138477569, 134284289, 134284289, 210587615297,
  210587615297, 134217793, 5, 5, 71681, 69633, 141557825, 138412097, 134283265, 134283265, 281681269424129, 134283265,
  134283265, 134283265, 134283265, 134283265, 134283265, 134283265, 134283265, 281612617056257, 134283265, 134283265,
  134283265, 134283265, 134283265, 134283265, 134283265, 134283265, 71682, 71682, 69634, 69634, 141558849, 141558849,
  141558849, 141558849, 138413121, 138413121, 138413121, 138413121, 141557825, 141557825, 141557825, 141557825,
  138412097, 138412097, 138412097, 138412097, 141558849, 141558849, 141558849, 141558849, 138413121, 138413121,
  138413121, 138413121, 134283265, 134283265, 134283265, 134283265, 134283265, 134283265, 134283265, 134283265, 71681,
  69633, 65537, 65537, 65537, 65537, 71682, 71682, 69634, 69634, 141558849, 141558849, 141558849, 141558849,
  138413121, 138413121, 138413121, 138413121, 141557825, 141557825, 141557825, 141557825, 138412097, 138412097,
  138412097, 138412097, 281681269424129, 134283265, 134283265, 134283265, 134283265, 134283265, 134283265, 134283265,
  134283265, 281612617056257, 134283265, 134283265, 134283265, 134283265, 134283265, 134283265, 134283265, 134283265,
  71, 69, 134217795, 134217793, 66561, 65537, 70658, 65537, 65537, 138413121, 134283265, 65537, 65537, 65537, 2, 2, 2,
  2, 69634, 69634, 66562, 66562, 65537, 65537, 65537, 65537, 136315969, 136315969, 134218817, 134218817, 134283265,
  134283265, 134283265, 134283265, 69634, 65537, 1, 67108993, 69337089, 67239937, 65, 67108993, 69337089, 67239937,
  65, 134283266, 134284289, 134284289, 65538, 134283266, 134284289, 134284289, 65538, 134283265, 134283265, 134283265,
  65537, 134283265, 134283265, 134283265, 65537, 3, 140509249, 135266369, 210587615297, 210587615297, 207366389825,
  207366389825, 135331841, 206292713473, 206292713473, 206292713473, 134283265, 206292713473, 206292713473,
  206292713473, 134283265, 66561, 134283265, 134283265, 206292713473, 206292713473, 206292713473, 206292713473,
  134283265, 206292713473, 206292713473, 206292713473, 134283265, 206292713473, 206292713473, 206292713473, 134283265,
  65537, 2, 67108994, 137506259969, 144083845121, 138715136001, 68289537, 66, 67108994, 137506259969, 144083845121,
  138715136001, 68289537, 66, 134283265, 206292713473, 206292713473, 206292713473, 134283265, 65537, 134283265,
  206292713473, 206292713473, 206292713473, 134283265, 65537, 65537, 65537, 66, 65537, 2, 2, 2, 2, 66, 66, 65537,
  65537, 1, 201457729, 131137, 131137, 131137, 131137, 65, 206292713473, 134283265, 134283265, 134283265, 134283265,
  65537, 201457729, 131137, 131137, 131137, 131137, 65, 206292713473, 134283265, 134283265, 134283265, 134283265,
  65537, 206292713473, 134283265, 134283265, 134283265, 134283265, 65537, 1, 67108993, 65, 67108993, 65, 134283266,
  65538, 134283266, 65538, 65537, 65537, 68288513, 67108993, 68288513, 67108993, 134284289, 134283266, 134284289,
  134283266, 134283265, 134283265, 134283265, 134283265, 134283265, 134283265, 134283265, 134283265, 134283265,
  134283265, 134283265, 134283265, 65537, 65537, 134283265, 65537, 65537, 65537, 134283265, 134283265, 206292713473,
  206292713473, 206292713473, 206292713473, 134283265, 206292713473, 206292713473, 206292713473, 134283265,
  206292713473, 206292713473, 206292713473, 134283265, 65537, 134283265, 206292713473, 206292713473, 206292713473,
  134283265, 65537, 134283265, 206292713473, 206292713473, 206292713473, 134283265, 65537, 206292713473, 134283265,
  134283265, 134283265, 134283265, 65537, 134283265, 65537, 134283265, 65537, 134283265, 134283265, 134283265,
  134283265, 134283265, 134283265, 134283265, 134283265, 134283265, 134283265, 134283265, 134283265, 134283265,
  134283265, 134283265, 134283265, 65537, 65537, 134283265, 65537, 65537, 65537, 134283265, 134283265, 206292713473,
  206292713473, 206292713473, 206292713473, 134283265, 206292713473, 206292713473, 206292713473, 134283265,
  206292713473, 206292713473, 206292713473, 134283265, 65537, 134283265, 206292713473, 206292713473, 206292713473,
  134283265, 65537, 134283265, 206292713473, 206292713473, 206292713473, 134283265, 65537, 206292713473, 134283265,
  134283265, 134283265, 134283265, 65537, 134283265, 65537, 134283265, 65537, 134283265, 134283265, 134283265,
  134283265, 134283265, 134283265, 134283265, 134283265, 141557825, 141557825, 141557825, 141557825, 138412097,
  138412097, 138412097, 138412097, 65537, 65537, 134283265, 65537, 65537, 65537, 134283265, 134283265, 206292713473,
  206292713473, 206292713473, 206292713473, 134283265, 206292714497, 206293762049, 206293762049, 134284289,
  206292714497, 206293762049, 206293762049, 134284289, 69633, 134283265, 206292713473, 206292713473, 206292713473,
  134283265, 65537, 134283265, 206292713473, 206292713473, 206292713473, 134283265, 65537, 206292713473, 134283265,
  134283265, 134283265, 134283265, 65537, 134283266, 65538, 134283266, 65538, 134284289, 134283266, 134284289,
  134283266, 134283265, 134283265, 134283265, 134283265, 141557825, 141557825, 141557825, 141557825, 138412097,
  138412097, 138412097, 138412097, 65537, 65537, 134283265, 65537, 65537, 65537, 134283265, 134283265, 206292713473,
  206292713473, 206292713473, 206292713473, 134283265, 206292714497, 206293762049, 206293762049, 134284289,
  206292714497, 206293762049, 206293762049, 134284289, 69633, 134283265, 206292713473, 206292713473, 206292713473,
  134283265, 65537, 134283265, 206292713473, 206292713473, 206292713473, 134283265, 65537, 206292713473, 134283265,
  134283265, 134283265, 134283265, 65537, 134283266, 65538, 134283266, 65538, 134284289, 134283266, 134284289,
  134283266, 65537, 65537, 65537, 137363521, 137364545, 134283265, 134283265, 136314945, 134283265, 70658, 67108994,
  67108994, 134283265, 134283265, 65537, 65537, 1, 1, 65537, 65537, 73532417, 71435265, 73532417, 71435265, 134283265,
  134283265, 134283265, 134283265, 65537, 65537, 69633, 71681, 65537, 65537, 67108993, 67108993, 67239937, 69337089,
  67108993, 67108993, 67239937, 69337089, 134283266, 134283266, 134284289, 134284289, 134283266, 134283266, 134284289,
  134284289, 65538, 65538, 65537, 65537, 65537, 134283265, 134283265, 1, 5, 6210, 4162, 6210, 4162, 65537, 65537,
  65537, 65537, 206292713473, 206292713473, 207366389825, 207232303169, 138477569, 138477569, 212601012289, 138477569,
  135331841, 138477569, 135331841, 206292713473, 206292713473, 206292713473, 206225670145, 134283265, 134283265,
  206292713473, 134283265, 134283265, 134283265, 134283265, 71681, 69633, 65537, 65537, 73532417, 73532417, 73532417,
  68289537, 73532417, 73532417, 73532417, 68289537, 139460673, 139460673, 134283265, 134283265, 139460673, 139460673,
  134283265, 134283265, 134283265, 134283265, 206292713473, 134283265, 206292713473, 134283265, 134283265, 134283265,
  134283265, 134283265, 134283265, 134283265, 134283265, 134283265, 134283265, 134283265, 134283265, 134283265,
  134283265, 134283265, 134283265, 134283265, 206292713473, 206292713473, 206292713473, 206292713473, 134283265,
  134283265, 206292713473, 134283265, 134283265, 134283265, 134283265, 134283265, 134283265, 134283265, 134283265,
  134283265, 134283265, 134283265, 134283265, 134283265, 134283265, 206292713473, 134283265, 206292713473, 134283265,
  134284289, 134284289, 134283265, 134283265, 134283265, 134283265, 134283265, 134283265, 134283265, 134283265,
  134283265, 134283265, 134283265, 134283265, 134283265, 134283265, 206292713473, 206292713473, 206292713473,
  206225670145, 134283265, 134283265, 206292713473, 134283265, 134283265, 134283265, 134283265, 134283265, 134283265,
  134283265, 134283265, 134283265, 134283265, 134283265, 134283265, 138412097, 138412097, 206292713473, 139460673,
  206292713473, 139460673, 134283265, 134283265, 134283266, 134283266, 134283265, 134283265, 134283265, 134283265,
  134283266, 134283266, 134284289, 134284289, 134283266, 134283266, 134284289, 134284289, 206293762049, 206293762049,
  206292713473, 206292713473, 134284289, 134284289, 206292648001, 134283265, 134283265, 134283265, 134283265,
  140509249, 140509249, 134283265, 134283265, 140509249, 140509249, 134283265, 134283265, 138412097, 138412097,
  206292713473, 139460673, 206292713473, 139460673, 134284289, 134284289, 134283266, 134283266, 134283265, 134283265,
  134283265, 134283265, 134283266, 134283266, 134284289, 134284289, 134283266, 134283266, 134284289, 134284289,
  206293762049, 206293762049, 206292713473, 206225670145, 134284289, 134284289, 206292648001, 134283265, 134283265,
  134283265, 134283265, 140509249, 140509249, 134283265, 134283265, 140509249, 140509249, 134283265, 134283265, 72706,
  72705, 69634, 69634, 69633, 69633, 69634, 69634, 65538, 65538, 69633, 69633, 65537, 65537, 65537, 65537, 69633,
  134283265, 134283265, 69633, 69633, 69634, 69634, 209379786817, 209380835393, 137363521, 137364545, 141557825,
  141558849, 210587615297, 210587615297, 138477570, 138477570, 69634, 69634, 5, 138477569, 138477569, 71681,
  210588663873, 210588663873, 135266369, 206293762049, 206293762049, 138477569, 134283265, 206292713473, 206292713473,
  134283265, 134283265, 206292713473, 206292713473, 134283265, 138477569, 206293762049, 206293762049, 134284289,
  134284289, 210587615297, 210587615297, 134217793, 65537, 69634, 65537, 66561, 65537, 65537, 3, 67108994, 67108994,
  67108994, 71435265, 4162, 67108994, 67108994, 67108994, 71435265, 4162, 141557825, 138412097, 138412097, 134283265,
  65537, 141557825, 138412097, 138412097, 134283265, 65537, 134283265, 134283265, 134283265, 134283265, 65537,
  134283265, 134283265, 134283265, 134283265, 65537, 69634, 65537, 3, 1, 134283265, 134283265, 134283265, 134283265,
  140509249, 138412097, 69633, 66561, 138412097, 138412097, 141557825, 141557825, 134283265, 134283265, 65537, 65537,
  134283265, 134283265, 134283265, 134283265, 134283265, 134283265, 65537, 65537, 6, 138413121, 138413121, 65538,
  65538, 134283265, 134283265, 65537, 65537, 134283265, 134283265, 65537, 65537, 1183809, 1089, 1, 1, 65537, 65537,
  65537, 65537, 71, 69, 65541, 65538, 3, 1, 138413121, 140510273, 69634, 66562, 134283265, 134283265, 65537, 65537,
  134283265, 134283265, 65537, 65537, 1183809, 1185857, 1093, 1090, 65537, 65537, 67585, 65537, 1, 140510273,
  141558849, 66562, 134283265, 141557825, 65537, 134283265, 134283265, 65537, 65537, 65537, 65537, 65537, 65537,
  65537, 1, 134283265, 65537, 134283265, 65537, 1, 137363521, 137363521, 209379786817, 141557825, 68609, 134284289,
  138478594, 210588663873, 134284289, 69634, 134283265, 134283265, 206292713473, 134283265, 65537, 65537, 65537,
  65537, 1, 140509249, 66561, 134283265, 65537, 134283265, 65537, 65537, 65537, 65537, 65537, 1, 5, 138413121,
  140510273, 71682, 69634, 134283265, 134283265, 65537, 65537, 1183809, 1185857, 1095, 1093, 207367438401, 135332865,
  207366455297, 207366455297, 207366455297, 135331841, 207370584129, 135335937, 1, 208306044993, 136314945, 136314945,
  134283265, 67585, 206292713473, 134283265, 134283265, 134283265, 65537, 3, 134283265, 65537, 134283265, 65537, 3,
  206292713473, 206292713473, 206292713473, 134283265, 210587615297, 138477569, 207366389825, 135331841, 207366389825,
  135331841, 135266369, 138477569, 210587615297, 138477569, 282780646899777, 212735098945, 207366389825, 206292713473,
  135331841, 212601012289, 140509249, 66561, 206292714497, 206293762049, 206293762049, 134284289, 206292713473,
  134283265, 206292713473, 134283265, 206292713473, 134283265, 134283265, 134284289, 206292713473, 134283265,
  286010663501889, 206225670145, 206225670145, 210588663873, 138412097, 206292648001, 134283265, 69633, 206292713473,
  206292713473, 206292713473, 134283265, 206292713473, 134283265, 206292713473, 134283265, 206292713473, 134283265,
  134283265, 134283265, 206292713473, 134283265, 281681269424129, 206292713473, 206292713473, 206292713473, 134283265,
  206292713473, 134283265, 65537, 1, 67108993, 67108993, 67239937, 69337089, 67108993, 67108993, 65, 134283266,
  134283266, 134284289, 134284289, 134283266, 134283266, 65538, 134283265, 134283265, 134283265, 134283265, 134283265,
  134283265, 65537, 135332865, 135337985, 135331841, 135333889, 135331841, 135331841, 66561, 5, 5, 70657, 70658,
  66561, 66562, 65537, 65537, 65537, 65537, 1, 67108993, 67239937, 69337089, 67108993, 67108993, 67108993, 65,
  134283266, 134284289, 134284289, 134283266, 134283266, 134283266, 65538, 134283265, 134283265, 134283265, 134283265,
  134283265, 134283265, 65537, 135331841, 135331841, 135333889, 135331841, 135332865, 135337985, 66561, 70657, 65537,
  65537, 65537, 1, 5, 138412097, 140509249, 71681, 69633, 134283265, 134283265, 65537, 65537, 1183809, 1185857, 1095,
  1093, 207366455297, 207366455297, 207366455297, 135331841, 207367438401, 135332865, 207370584129, 135335937, 1,
  134283265, 65537, 134283265, 65537, 6, 210587615297, 134283265, 206292713473, 206292713473, 206292713473, 134283265,
  207366389825, 207366389825, 135331841, 135331841, 136314945, 138477569, 210587615297, 138477569, 212601012289,
  135266369, 67585, 206292713473, 134283265, 206292714497, 206293762049, 206293762049, 134284289, 206292713473,
  206292713473, 134283265, 134283265, 134283265, 134284289, 206292713473, 134283265, 206292648001, 134283265, 69633,
  206292713473, 134283265, 206292713473, 206292713473, 206292713473, 134283265, 206292713473, 206292713473, 134283265,
  134283265, 134283265, 134283265, 206292713473, 134283265, 206292713473, 134283265, 65537, 65537, 65537, 6,
  134283265, 65537, 138412097, 65537, 134283265, 65537, 1, 134283265, 134287361, 134290433, 65537, 135331841,
  135335937, 135339009, 66561, 1, 134283265, 134287361, 134290433, 65537, 135331841, 135335937, 135339009, 66561,
  65537, 65537, 69, 65537, 65537, 134283265, 134283265, 201461825, 201463873, 201458753, 206292713473, 206292713473,
  206292713473, 131137, 134283265, 206292713473, 206292713473, 206292713473, 206292713473, 206292713473, 206292713473,
  206292713473, 206292713473, 206292713473, 206292713473, 206292713473, 206292713473, 206292713473, 206292713473,
  137640345601, 137640345601, 137640345601, 137640345601, 137640345601, 137640345601, 137640345601, 137640345601, 1,
  131141, 65, 134283265, 65537, 65537, 65537, 65537, 65537, 65537, 65537, 135331841, 134283265, 135331841, 134283265,
  1, 134218817, 1090, 134283265, 65537, 65537, 134283265, 134283265, 65537, 65537, 67239941, 134283265, 65537,
  134283265, 65538, 134283265, 65538, 65, 65537, 65537, 65, 65537, 65537, 134287361, 134284289, 201463873, 201458753,
  137640345601, 137640345601, 134283265, 134283265, 201461825, 201458753, 137640345601, 137640345601, 206292713473,
  206292713473, 206292713473, 206292713473, 206292713473, 206292713473, 137640345601, 137640345601, 137640345601,
  137640345601, 137640345601, 137640345601, 1, 134283265, 134283265, 134283265, 65537, 67108994, 67108994, 67108994,
  66, 67108994, 67108994, 67108994, 66, 67108994, 67108994, 67108994, 66, 65, 65537, 65537, 1, 134283265, 134283265,
  134283265, 65537, 67108993, 67108993, 67108993, 65, 67108994, 67108994, 67108994, 66, 67108994, 67108994, 67108994,
  66, 1, 206293762049, 206299004929, 134283265, 134283265, 134285313, 67239937, 134284289, 134289409, 65537, 65,
  65537, 65537, 65537, 65537, 65537, 65, 65537, 65537, 1, 134283265, 65537, 1, 134287361, 134284289, 206296842305,
  206293696577, 206292648001, 134217793, 134283265, 134283265, 206292713473, 134283265, 65537, 65, 65537, 65537, 69,
  65537, 65538, 1, 1, 71, 69, 1, 134283265, 134283265, 134283265, 65537, 1, 206293762049, 206299004929, 134284289,
  134289409, 134283265, 134285313, 134283265, 67239937, 65537, 65, 65537, 65537, 65537, 65537, 65537, 69, 65537,
  65537, 1, 134283265, 65537, 1, 134287361, 134284289, 206296842305, 206293696577, 206292648001, 134217793, 134283265,
  134283265, 206292713473, 134283265, 65537, 65, 65537, 65537, 69, 65537, 65537, 1, 1, 69, 71, 1, 134283265,
  134283265, 134283265, 65537, 65538, 65537, 65537, 65537, 131143, 131138, 134217793, 67239937, 67239937, 134283265,
  1, 134283265, 65537, 134283265, 65537, 1, 134283265, 65537, 134283265, 65537, 131137, 65, 206292713473, 134283265,
  206292713473, 134283265, 1, 131137, 201457729, 131137, 201457729, 131137, 65, 134283265, 206292713473, 134283265,
  206292713473, 134283265, 65537, 1, 5, 71, 69, 65537, 65537, 134217793, 131138, 131141, 134283265, 67239937,
  67239937, 1, 131137, 65, 134283265, 65537, 134283265, 65537, 134283265, 134283265, 134283265, 206292713473,
  134283265, 134283265, 206292713473, 134283265, 206292713473, 134283265, 65537, 134283265, 134283265, 134283265,
  134283265, 65537, 134283265, 65537, 67239937, 67239937, 134283265, 206292713473, 134283265, 134283265, 137640345601,
  67239937, 206292713473, 134283265, 65537, 134283265, 67239937, 67239937, 134283265, 65537, 65, 66561, 135331842,
  135331842, 135331842, 135331842, 135331842, 135331842, 69, 66561, 135331841, 135331841, 68157570, 68157570,
  68157570, 68157570, 65537, 66561, 65537, 66561, 135266369, 135266369, 65538, 65537, 1, 134283265, 65537, 134283265,
  65537, 1, 134283265, 65537, 134283265, 65537, 131137, 65, 206292713473, 134283265, 206292713473, 134283265, 1,
  131137, 131138, 201457729, 131137, 201457729, 131137, 65, 134283265, 134283265, 206292713473, 134283265,
  206292713473, 134283265, 65537, 1, 131137, 131137, 65, 134283265, 134283265, 65537, 65537, 65537, 1, 1, 69, 71,
  65538, 65541, 134217793, 131138, 131143, 134283265, 67239937, 67239937, 65537, 65537, 1, 5, 71, 69, 65537, 65537,
  134217793, 131141, 131138, 134283265, 67239937, 67239937, 134283265, 65537, 206292713473, 134283265, 134283265,
  134283265, 206292713473, 134283265, 206292713473, 134283265, 65537, 134283265, 134283265, 65537, 134283265,
  134283265, 134283265, 134283265, 134283265, 134283265, 134283265, 65537, 206292713473, 134283265, 134283265,
  67239937, 137640345601, 67239937, 206292713473, 134283265, 65537, 134283265, 67239937, 65537, 134283265, 67239937,
  67239937, 134283265, 67239937, 67239937, 3, 1, 1185857, 1183809, 1093, 1090, 3, 1183809, 1093, 65, 69633, 65537, 2,
  70657, 65, 65537, 70657, 69634, 2, 8, 8, 8, 8, 8, 4, 65537, 66, 65537, 1, 65537, 65537, 65, 65537, 1, 70, 65, 65537,
  70, 1, 206293762049, 138477569, 134283265, 134283265, 134283265, 206292713473, 206292713473, 206292713473,
  134283265, 206292713473, 134283265, 134283265, 134283265, 134283265, 134283265, 134283265, 206292713473, 134283265,
  134283265, 65537, 134283265, 134283265, 134283265, 134283265, 134283265, 134283265, 206292713473, 206292713473,
  206292713473, 134283265, 206292713473, 134283265, 134283265, 134283265, 134283265, 134283265, 134283265,
  206292713473, 134283265, 134283265, 65537, 134283265, 134283265, 134283265, 134284289, 134284289, 134283265, 65537,
  134283265, 134283265, 206292713473, 206292713473, 206292713473, 206292713473, 134283265, 134283265, 134283265,
  206225670145, 134283265, 134283265, 206292713473, 206292713473, 206292713473, 134283265, 134283265, 65537,
  134283265, 65537, 134283265, 65537, 134283265, 134283265, 206292713473, 206292713473, 206292713473, 206292713473,
  134283265, 134283265, 134283265, 206225670145, 134283265, 134283265, 206292713473, 206292713473, 206292713473,
  134283265, 134283265, 65537, 134283265, 65537, 134283265, 134283265, 134283265, 134283265, 134283265, 134283265,
  134283265, 134283265, 134283265, 134283265, 134283265, 134283265, 65537, 65537, 134284289, 65538, 281612617056257,
  210587615297, 134217793, 65537, 65537, 134283265, 65537, 134283265, 65537, 65537, 65537, 65537, 69633, 1, 65537,
  206293762049, 138477569, 134283265, 134283265, 134283265, 206292713473, 206292713473, 206292713473, 134283265,
  206292713473, 134283265, 134283265, 134283265, 134283265, 134283265, 134283265, 206292713473, 134283265, 134283265,
  65537, 134283265, 134283265, 134283265, 134283265, 134283265, 134283265, 206292713473, 206292713473, 206292713473,
  134283265, 206292713473, 134283265, 134283265, 134283265, 134283265, 134283265, 134283265, 206292713473, 134283265,
  134283265, 65537, 134283265, 134283265, 134283265, 134284289, 134284289, 134283265, 65537, 134283265, 134283265,
  206292713473, 206292713473, 206292713473, 206292713473, 134283265, 134283265, 134283265, 206225670145, 134283265,
  134283265, 206292713473, 206292713473, 206292713473, 134283265, 134283265, 65537, 134283265, 65537, 134283265,
  65537, 134283265, 134283265, 206292713473, 206292713473, 206292713473, 206292713473, 134283265, 134283265,
  134283265, 206225670145, 134283265, 134283265, 206292713473, 206292713473, 206292713473, 134283265, 134283265,
  65537, 134283265, 65537, 134283265, 134283265, 134283265, 134283265, 134283265, 134283265, 134283265, 134283265,
  134283265, 134283265, 134283265, 134283265, 65537, 65537, 134284289, 65538, 281612617056257, 210587615297,
  134217793, 65537, 65537, 134283265, 65537, 134283265, 65537, 65537, 65537, 65537, 69633, 1, 65537, 210588663873,
  138412097, 134283265, 141557825, 138412097, 206292713473, 206292713473, 206292713473, 134283265, 206292648001,
  134283265, 134284289, 134284289, 134283266, 134283265, 134283265, 206292713473, 134283265, 134283265, 65537,
  134283265, 134283265, 134283265, 134283265, 141557825, 138412097, 206292713473, 206292713473, 206292713473,
  134283265, 206292648001, 134283265, 134284289, 134284289, 134283266, 134283265, 134283265, 206292713473, 134283265,
  134283265, 65537, 134283265, 134283265, 134283265, 134284289, 134284289, 134283265, 65537, 134283265, 134283265,
  206292713473, 206292714497, 206293762049, 206293762049, 134284289, 134283265, 134283265, 206225670145, 134283265,
  134283265, 206292713473, 206292713473, 206292713473, 134283265, 134283265, 65537, 134283266, 65538, 134283265,
  65537, 134283265, 134283265, 206292713473, 206292714497, 206293762049, 206293762049, 134284289, 134283265,
  134283265, 206225670145, 134283265, 134283265, 206292713473, 206292713473, 206292713473, 134283265, 134283265,
  65537, 134283266, 65538, 134283266, 134283266, 140509249, 140509249, 134284289, 134283266, 134283266, 139460673,
  139460673, 134284289, 141557825, 138412097, 65537, 65537, 138478594, 69634, 286010663501889, 210588663873,
  138412097, 69633, 65537, 138412097, 65537, 141557825, 65537, 65537, 65537, 65537, 69634, 5, 69633]

end Ebcc.Hints
