/-!
Hints for claims of `tools/hints.py`.
-/

set_option maxRecDepth 100000

namespace Ebcc.Hints

def amps_LCCD : List Nat := [
  1, 1, 1, 1, 1, 1, 1, 66, 1, 65537, 65537, 65537, 65538, 65537, 65537, 65537, 65537, 65537, 65537, 65, 1, 65538,
  65538, 65537, 65537, 65537, 1, 1, 1, 1, 1, 1, 1, 1, 1, 1, 1, 1, 1, 1, 1, 1, 1, 1, 1, 1, 1, 1, 65537, 65537, 65537,
  65537, 65537, 65537, 65537, 65538, 65537, 65537, 65538, 65538, 65538, 65538, 1, 65537, 65537, 1, 4161, 3137, 4161,
  3137, 65537, 65537, 65537, 65537, 1, 65537, 65537, 65537, 65537, 65537, 65537, 65537, 65537, 65537, 65537, 65, 65,
  65, 65537, 66, 65537, 65, 65, 65, 1, 69634, 68610, 4161, 69633, 69633, 1, 69633, 68609, 65538, 65537, 65, 65, 65537,
  65537, 65537, 65537, 65537, 65538, 65537, 65537, 65538, 65538, 65538, 65538, 69634, 65537, 1, 69633, 69633, 68609,
  68609, 65537, 65537, 65537, 65537, 1, 65537, 65537, 65537, 65537, 65537, 65537, 65537, 65537, 65537, 65537, 65537,
  65537, 65538, 1, 69633, 65537, 65537, 65537, 65537, 65537, 65537, 65537, 65537, 65537, 65537, 65537, 65537, 65538,
  1, 69633, 65537, 65537, 65537, 65537, 65537, 65537, 65537, 65537, 65537, 65537, 65537, 65537, 69634, 5, 69634,
  65538, 65538, 65537, 65537, 65537, 65537, 65537, 65537, 65537, 65537, 65537, 65537]

def amps_LCCSD : List Nat := [
  1, 1, 1, 1, 1, 1, 1, 1, 1, 1, 1, 1, 65537, 65, 1, 70657, 70657, 1, 1090, 4162, 1, 69633, 68609, 1, 66, 66, 65, 1,
  65538, 65, 65, 1, 65538, 65538, 65537, 65537, 69633, 65537, 65537, 65537, 65537, 65, 65537, 65537, 65537, 65537, 65,
  65537, 65537, 65537, 65538, 65537, 1, 1, 1, 1, 1, 1, 1, 1, 1, 1, 1, 1, 1, 1, 1, 1, 1, 1, 1, 1, 1, 1, 1, 1, 1, 1, 1,
  1, 1, 1, 1, 1, 1, 1, 65, 65537, 65537, 65, 66, 65, 65, 65537, 1, 4161, 3137, 4161, 4161, 65, 65, 66, 69633, 65537,
  4162, 65537, 65537, 65537, 65538, 1, 69633, 68609, 69633, 69633, 69634, 65537, 65, 65, 65537, 65537, 65, 65537,
  65537, 65537, 65537, 65538, 65, 65, 65538, 65538, 65538, 65538, 69633, 1, 65, 65537, 69633, 69633, 68609, 68609,
  65537, 65537, 65537, 65537, 69633, 1, 65537, 65537, 65537, 65537, 65537, 65, 65537, 65537, 65537, 65537, 65537,
  65537, 65537, 65537, 65537, 65537, 65, 65538, 65, 65, 65537, 65, 65537, 65537, 1, 69634, 68610, 65, 4161, 65537,
  4161, 69633, 69633, 4161, 3137, 65538, 65537, 65537, 65537, 65537, 65537, 65537, 65537, 65537, 65537, 65, 66, 65,
  65, 65538, 65538, 65538, 65538, 69633, 4162, 65537, 1, 4161, 3137, 4161, 3137, 65537, 65537, 65537, 65537, 69633,
  65537, 1, 65537, 65537, 65537, 65537, 65, 65537, 65537, 65537, 65537, 65537, 65537, 65537, 65537, 65537, 65537,
  69633, 1, 65538, 65537, 65537, 65537, 65537, 65537, 65537, 65537, 65537, 65537, 65537, 65537, 65537, 65537, 65537,
  65537, 65537, 69633, 1, 65538, 65537, 65537, 65537, 65537, 65537, 65537, 65537, 65537, 65537, 65537, 65537, 65537,
  65537, 65537, 65537, 65537, 69634, 5, 69634, 69633, 65537, 65537, 65537, 69633, 65537, 65537, 65537, 65537, 65537,
  65537, 65537, 65538, 65537, 65538, 65537]

def amps_CCD : List Nat := [
  1, 1, 1, 1, 1, 1, 1, 1, 1, 1, 1, 5186, 1090, 69633, 69633, 71681, 69633, 65537, 67108993, 67108993, 134283265,
  134283265, 65537, 67108993, 67108993, 65, 2113, 65537, 1, 1, 134283266, 134283266, 134283265, 134283265, 1, 65, 65,
  65537, 65537, 65537, 65537, 141557825, 138412097, 134283266, 134283266, 140509249, 140509249, 65537, 65538, 65, 65,
  74579969, 71434241, 6210, 74580994, 65537, 138412097, 65, 74579969, 1, 1, 1, 1, 1, 1, 1, 1, 1, 1, 1, 1, 1, 1, 1, 1,
  1, 1, 1, 1, 1, 1, 1, 1, 1, 1, 65, 65, 69634, 69633, 69633, 71681, 71681, 69633, 69633, 71681, 71681, 65537, 65537,
  65537, 65537, 65537, 5186, 66561, 66562, 65, 65, 69634, 71682, 5185, 5186, 66561, 4161, 4161, 6209, 4161, 65537, 65,
  65, 69634, 65537, 65537, 67108993, 67108993, 67108993, 67108993, 70385666, 74579970, 70386690, 74580994, 65537,
  65537, 65537, 65537, 134283265, 134283265, 134283265, 134283265, 134283265, 134283265, 134283265, 134283265, 65537,
  65537, 134283266, 134283266, 65, 66, 71435265, 74580993, 65537, 65537, 65537, 65537, 5, 71682, 65537, 6209, 4161,
  6209, 4161, 65537, 65537, 65537, 137363522, 137364546, 141557826, 141558850, 67108993, 67108993, 65, 67108993,
  67108993, 67108993, 67108993, 65, 67108993, 67108993, 67108993, 67108993, 65, 66, 65537, 65537, 65, 65, 134283265,
  134283265, 73531393, 73531393, 73531393, 73531393, 65537, 65537, 69634, 69634, 65537, 65537, 67108993, 67108993,
  67108993, 67108993, 65537, 65537, 65537, 65537, 65537, 134283265, 134283265, 134283265, 134283265, 65537, 65, 65,
  65537, 65537, 1, 1, 65537, 65537, 65537, 134283265, 134283265, 138412097, 138412097, 65537, 65537, 134283265,
  134283265, 134283265, 134283265, 134283265, 134283265, 134283265, 134283265, 138412097, 141557825, 138412097,
  138412097, 65537, 65537, 138412097, 138412097, 138412097, 138412097, 141557825, 141557825, 141557825, 141557825,
  65537, 65537, 65, 65, 134284289, 134284289, 134283265, 134283265, 134283265, 134283265, 140509249, 140509249,
  140509249, 140509249, 65, 65538, 134283265, 134283265, 65538, 1089, 67108993, 67108993, 65, 1, 68609, 134283265,
  68610, 138413121, 141558849, 141558849, 138413121, 138412097, 138412097, 138412097, 138412097, 141557825, 141557825,
  65, 65, 65538, 65537, 137363521, 134283265, 134283265, 73532417, 73532417, 65537, 65537, 69634, 69634, 65537, 65537,
  67108993, 67108993, 67108993, 67108993, 65537, 65537, 65537, 65537, 65537, 134283265, 134283265, 134283265,
  134283265, 65537, 65537, 65, 65, 65537, 1, 1, 65537, 65537, 65537, 134283265, 134283265, 138412097, 138412097,
  65537, 134283265, 134283265, 134283265, 134283265, 65537, 134283265, 134283265, 134283265, 134283265, 141557825,
  138412097, 138412097, 138412097, 65537, 138412097, 138412097, 141557825, 141557825, 65537, 138412097, 138412097,
  141557825, 141557825, 141557825, 138412097, 65537, 65537, 65, 65, 134284289, 134284289, 139460673, 139460673,
  139460673, 139460673, 134283265, 134283265, 134283265, 134283265, 1, 69633, 65537, 65537, 65537, 65537, 65537,
  65537, 134283265, 134283265, 134283265, 134283265, 134283265, 134283265, 134283265, 134283265, 134283265, 134283265,
  134283265, 134283265, 65537, 65537, 65537, 65537, 134283265, 134283265, 65538, 134284289, 65537, 134283265, 65537,
  134283265, 1, 69633, 65537, 65537, 65537, 65537, 65537, 65537, 134283265, 134283265, 134283265, 134283265,
  134283265, 134283265, 134283265, 134283265, 134283265, 134283265, 134283265, 134283265, 65537, 65537, 65537, 65537,
  134283265, 134283265, 65538, 134284289, 65537, 134283265, 65537, 134283265, 5, 69634, 65537, 65537, 65537, 65537,
  65537, 65537, 141557825, 138412097, 141557825, 138412097, 134283266, 134283266, 140509249, 140509249, 134283266,
  134283266, 139460673, 139460673, 65538, 65538, 65537, 65537, 141557825, 138412097, 69634, 138478594, 65537,
  138412097, 65537, 141557825]

def amps_CC2 : List Nat := [
  1, 1, 1, 1, 1, 1, 1, 1, 1, 1, 1, 1, 65, 65, 65537, 70385665, 65537, 66561, 65, 65537, 1, 1, 65, 138580000769,
  134283265, 67108993, 68288513, 135266369, 67108993, 1, 1, 1, 1, 1, 1, 4161, 6209, 144082796545, 65537, 65537,
  134283265, 134283265, 69337089, 6209, 144082731073, 69633, 71681, 70657, 68609, 1, 1, 4161, 4161, 6209, 5185, 65537,
  134283265, 134283265, 1, 69633, 1, 67108993, 1, 65, 65537, 65537, 206225670145, 65538, 65537, 206292713473,
  206292648001, 65537, 65537, 134283265, 134283265, 134283265, 134283265, 134284289, 134283265, 134283265, 6209,
  73531393, 217978314424385, 70657, 70657, 65537, 65537, 139460673, 135266369, 66, 71435265, 74580993, 66, 71435265,
  74580993, 4161, 3137, 66561, 135331841, 138477569, 1089, 67108993, 67108993, 71303297, 68157569, 68288513,
  138580000769, 141801226241, 1, 1, 1, 1, 1, 1, 1, 1, 1, 1, 1, 1, 1, 1, 1, 1, 1, 1, 1, 1, 1, 1, 1, 1, 1, 1, 1, 1, 1,
  1, 1, 1, 1, 1, 1, 65, 65, 1, 1, 1, 1, 71434241, 65, 65, 65, 138412097, 65537, 65, 6209, 4161, 69633, 6209, 4161, 65,
  65537, 212600946817, 65, 65537, 67108993, 66561, 70385665, 65537, 4161, 134283265, 65, 65, 65537, 66561, 65537,
  144082731073, 70385665, 65537, 65, 65, 67108993, 1, 1, 134283265, 212343451615233, 65, 65, 65537, 134217793,
  67108993, 212601012289, 69337089, 207366389825, 135266369, 135266369, 134283265, 212601012289, 134283265, 70385665,
  5, 65, 69633, 140509249, 65, 65, 65537, 65, 65, 68288513, 68288513, 212343451615233, 65, 207366389825, 67239937,
  69337089, 67108993, 67108993, 144082796545, 69633, 71681, 70657, 65, 4162, 65537, 65537, 65, 67108993, 67108993,
  65537, 66561, 65537, 1089, 65, 1089, 4161, 65, 65, 65537, 65537, 134283265, 134283265, 65537, 65537, 134217793,
  65537, 65537, 1089, 68288513, 1089, 68288513, 1089, 68288513, 1089, 68288513, 134283265, 134283265, 134283265,
  206292713473, 206225670145, 134283265, 134283265, 134283265, 134283265, 206225670145, 1, 134283265, 65537, 1,
  134283265, 65537, 69633, 69633, 65537, 138477569, 206292713473, 206292648001, 281612617056257, 65537, 134283265,
  206292648001, 65537, 67108993, 66, 66561, 135266369, 66561, 135266369, 138580000769, 68288513, 135267393, 68288513,
  138714087425, 1, 69337089, 65, 65537, 67585, 135331841, 144082796545, 217978314489857, 140509249, 134217793,
  212601012289, 65537, 65537, 134217793, 65537, 65537, 1089, 68288513, 1089, 68288513, 66561, 66561, 135266369,
  135266369, 134283265, 134283265, 134283265, 206292713473, 206225670145, 134283265, 134283265, 134283265, 134283265,
  206225670145, 65537, 1, 134283265, 1, 134283265, 65537, 69633, 69633, 65537, 281612617056257, 206292713473,
  206292648001, 138477569, 65537, 134283265, 206292648001, 65537, 139460673, 139461697, 72483841, 69634, 138412097,
  69634, 69634, 138412097, 67108993, 67108993, 68288513, 138580000769, 141801226241, 1089, 71303297, 65, 65537, 65538,
  4162, 65, 71434241, 74579969, 65, 71434241, 74579969, 65538, 138413121, 141558849, 1089, 68157569, 71303297,
  135266369, 72482817, 72483841, 65, 65537, 134283265, 4162, 4162, 4259969, 134283265, 134283265, 135266369,
  207366389825, 210587615297, 66561, 138477569, 65537, 65, 66, 65, 65537, 138412097, 141557825, 65, 71434241,
  74579969, 65, 71434241, 74579969, 1089, 68157569, 71303297, 138477569, 1, 65537, 65537, 65537, 206225670145, 65537,
  65537, 206225670145, 206292713473, 206292713473, 65537, 65537, 134283265, 134283265, 134283265, 134283265,
  134283265, 134283265, 134283265, 134283265, 65537, 134217793, 281612617056257, 138477569, 1, 65537, 65537, 65537,
  206225670145, 65537, 65537, 206225670145, 206292713473, 206292713473, 65537, 65537, 134283265, 134283265, 134283265,
  134283265, 134283265, 134283265, 134283265, 134283265, 65537, 134217793, 281612617056257, 138412097, 5, 69633,
  65538, 65537, 206225670145, 65538, 65537, 206225670145, 206292648001, 206292648001, 65537, 65537, 134283265,
  134284289, 134283265, 134283265, 134284289, 134283265, 134283265, 134283265, 69633, 138412097, 286010663501889]

def amps_CCSD : List Nat := [
  1, 1, 1, 1, 1, 1, 1, 1, 1, 1, 1, 1, 65537, 1, 1, 69633, 71681, 69633, 65, 1, 65537, 65, 136314945, 134217793, 1,
  6209, 4161, 136314945, 1, 65537, 69337089, 67239937, 2162817, 66, 66, 65537, 136314945, 1, 1, 1, 1, 65, 134283265,
  134283265, 1089, 4161, 65537, 65537, 3137, 4161, 66561, 69633, 134283265, 135331841, 66561, 66561, 134284289,
  134284289, 1, 65537, 134283265, 134283265, 65537, 4161, 4161, 1090, 5186, 65537, 65537, 134283265, 66561, 135266369,
  136314945, 134283265, 210587615297, 207366389825, 136314945, 134217793, 141935312897, 74579969, 71434241, 73531393,
  68288513, 65537, 135266369, 138477569, 210587615297, 207232303169, 135331841, 135331841, 206292713473, 206292713473,
  138413121, 138413121, 212601012289, 207232303169, 140509249, 138412097, 65, 65537, 73531393, 73531393, 67108993,
  67108993, 71303297, 1, 1, 1, 65, 136315969, 65537, 134283265, 65537, 134284289, 134284289, 134283265, 134283265,
  206292713473, 206292713473, 134283265, 134283265, 1, 65537, 65537, 134283265, 134283265, 134283265, 134283265,
  206292713473, 206225670145, 134283265, 134283265, 206292713473, 206292713473, 206292713473, 206292713473, 1,
  144082731073, 67585, 74580993, 76370083841, 65537, 1, 134283266, 134283266, 139460673, 139460673, 4162, 4162,
  6357121, 4259969, 6209, 5185, 1, 1, 69633, 1, 1, 65537, 134283265, 65537, 1, 213675737217, 65537, 65537, 65, 65537,
  65537, 134283265, 134283265, 134283265, 134283265, 134283265, 206292713473, 206225670145, 134283265, 134283265,
  206292713473, 206292713473, 206292713473, 206292713473, 65538, 65537, 134283265, 134283265, 134283265, 134283265,
  134283265, 206292713473, 206292713473, 134283265, 134283265, 206293762049, 206293762049, 206292713473, 206292713473,
  134283265, 206292713473, 134283265, 206292648001, 206292713473, 141557825, 138412097, 134284289, 134284289,
  134283265, 134283265, 206292713473, 206292713473, 134283265, 134283265, 134284289, 134283266, 134283266, 140509249,
  140509249, 134283265, 65537, 134283265, 134284289, 65537, 134283265, 134284289, 134283265, 65, 65, 74579969,
  71434241, 6210, 74580994, 6357121, 73015623873, 65537, 282780646899777, 65537, 134283265, 65537, 138412097, 65537,
  70658, 141557825, 70658, 139460673, 66, 66, 72483841, 68289537, 66, 74580993, 71435265, 66, 74580993, 71435265,
  69633, 68609, 66561, 135266369, 134283265, 134283265, 210587615297, 207366389825, 138477569, 135331841, 1, 1, 1, 1,
  1, 1, 1, 1, 1, 1, 1, 1, 1, 1, 1, 1, 1, 1, 1, 1, 1, 1, 1, 1, 1, 1, 1, 1, 1, 1, 1, 1, 1, 1, 1, 1, 1, 1, 1, 1, 1, 1,
  4161, 6209, 4161, 65, 65, 69633, 71681, 65, 65537, 6209, 4161, 1, 69633, 1, 1, 65537, 1, 69633, 1, 1, 136314945, 65,
  1, 65537, 65, 138412097, 67585, 65537, 4162, 65537, 134283265, 134283265, 65537, 65537, 140509249, 140509249, 65537,
  67585, 4161, 66561, 69633, 1, 71434241, 65, 140509249, 69633, 2113, 65, 136314945, 136314945, 1, 1, 66561, 71681,
  65, 65537, 66561, 69633, 65, 65, 65, 65, 67108993, 67108993, 1, 65537, 65, 65, 66561, 69633, 67108993, 2113, 4162,
  137363521, 66561, 135331841, 138477569, 4161, 212600946817, 1089, 1090, 5186, 65, 66561, 69633, 67585, 65537, 69633,
  1, 66561, 69633, 66561, 65537, 65537, 65537, 1, 4161, 7233, 1089, 66561, 66562, 65, 66561, 135331841, 138477569,
  4161, 5, 6209, 69633, 69633, 65537, 69633, 1, 65, 1, 1, 65, 67108993, 67108993, 69633, 2113, 212600946817, 1, 69633,
  137363521, 65537, 67585, 65537, 1, 1, 4161, 6209, 1, 69633, 66561, 1, 1, 1, 65537, 65537, 134283265, 66561, 69633,
  66561, 65, 1089, 4161, 1, 1, 65537, 4162, 6210, 71435265, 141936361473, 65537, 65537, 67108994, 67108994, 66561,
  69633, 66561, 4162, 212601012289, 65537, 65538, 7233, 68288513, 136314945, 65, 65, 134283265, 65537, 207366389825,
  66561, 3137, 4161, 65537, 134283265, 134283265, 282780646899777, 136314945, 136315969, 67108993, 213674688641,
  213675737217, 71435265, 141936361473, 66561, 66561, 137363521, 137363521, 138412097, 138412097, 134283265,
  134283265, 134283265, 134283265, 135266369, 135266369, 207232303169, 207232303169, 212601012289, 212601012289,
  140509249, 140509249, 138412097, 138412097, 209379786817, 209379786817, 210453528641, 210453528641, 2113, 2113,
  140509249, 140509249, 66561, 65537, 65537, 65537, 3137, 4161, 1089, 68157569, 71303297, 69633, 69633, 71681, 71681,
  68609, 69633, 1089, 68288513, 73531393, 1089, 68288513, 73531393, 69633, 69633, 71681, 71681, 68609, 69633,
  134217793, 141557826, 141558850, 137363522, 137364546, 65537, 65, 4162, 6210, 66561, 5185, 3137, 65537, 134283265,
  134283265, 5, 65, 69633, 69633, 65537, 66561, 65537, 65537, 65537, 66561, 69633, 65537, 134283265, 134283265, 65537,
  134283265, 7233, 73531393, 65, 69633, 71681, 72705, 65, 65, 67108993, 5, 71681, 6210, 65537, 6209, 4161, 65537,
  65537, 65537, 65537, 134283265, 134283265, 65, 2113, 65, 140509249, 140509249, 65537, 6209, 4161, 6209, 4161, 71681,
  72705, 65537, 65537, 65537, 65537, 134283265, 134283265, 2113, 65, 136314945, 136314945, 67108993, 67585, 140509249,
  65537, 136314945, 2113, 65537, 65537, 65538, 3137, 73531393, 134283265, 134283265, 212343451615233, 2113, 2113,
  69337089, 69337089, 138580000769, 71434241, 141935312897, 71434241, 73531393, 141935312897, 140861571073, 71434241,
  73531393, 141935312897, 140861571073, 67108993, 6209, 4161, 136314945, 136315969, 66561, 5185, 3137, 66561,
  135331841, 138477569, 1089, 71434241, 70385665, 1089, 71434241, 70385665, 65, 65, 4161, 6209, 4161, 6209, 1089,
  6209, 213674688641, 213675737217, 137363522, 137364546, 141557826, 141558850, 4161, 6209, 4161, 6209, 71434241,
  141935312897, 144082796545, 66561, 66561, 135266369, 135266369, 140509249, 140509249, 67108993, 65, 65537, 65, 65,
  136314945, 134283265, 134283265, 134283265, 134283265, 135266369, 135266369, 207232303169, 207232303169,
  212601012289, 212601012289, 66561, 69633, 66561, 6209, 4161, 134217793, 65537, 65537, 65537, 65537, 134283265,
  134283265, 65537, 1089, 65, 4161, 66561, 66561, 135266369, 135266369, 140509249, 140509249, 66, 65, 65665, 69634,
  69634, 65537, 134283265, 134283265, 65537, 134283265, 134283265, 67108993, 67108993, 67108993, 67108993, 65537,
  134283265, 134283265, 65537, 134283265, 134283265, 131137, 66, 65, 65537, 65537, 65537, 1089, 68288513, 67108993,
  67108993, 73531393, 68288513, 138714087425, 144082796545, 1089, 68288513, 67108993, 67108993, 73531393, 68288513,
  138714087425, 144082796545, 65537, 65537, 65537, 66561, 66561, 135266369, 135266369, 140509249, 140509249,
  135266369, 135266369, 207232303169, 207232303169, 212601012289, 212601012289, 134283265, 134284289, 134284289,
  206292713473, 206225670145, 134283265, 134283265, 134283265, 134283265, 134283265, 134283265, 206292713473,
  206292713473, 206292713473, 206292713473, 134283265, 134283265, 134284289, 134284289, 206225670145, 140509249,
  140509249, 140509249, 140509249, 134283265, 134283265, 206292713473, 206292713473, 206292713473, 206292713473,
  134283265, 65537, 1, 73531393, 71434241, 140861571073, 141935312897, 73531393, 71434241, 140861571073, 141935312897,
  134283265, 206292713473, 134283265, 1, 134283265, 134283265, 134283265, 134283265, 206292713473, 206292713473,
  206292713473, 206292713473, 134283265, 206292713473, 65537, 138412097, 138412097, 65, 71434241, 71434241, 74579969,
  74579969, 69337089, 67239937, 65, 71434241, 71434241, 74579969, 74579969, 69337089, 67239937, 71435265, 71435265,
  74580993, 69633, 134283265, 134283265, 138412097, 138412097, 65537, 65537, 134283265, 134283265, 134283265,
  134283265, 134283265, 134283265, 134283265, 134283265, 136314945, 136314945, 134217793, 134217793, 71435265,
  67108994, 67108994, 134283265, 65537, 65537, 134283265, 134283265, 134283265, 134283265, 134283265, 69633,
  206293762049, 206293762049, 65537, 281612617056257, 206292713473, 206292648001, 138477569, 134284289, 134284289,
  65537, 3137, 70385665, 145156538369, 3137, 70385665, 145156538369, 65537, 65537, 65537, 134283265, 134283265,
  134283265, 134283265, 134283265, 206292713473, 206292713473, 206292713473, 206292713473, 134283265, 206292713473,
  138477569, 138477569, 206292648001, 1089, 68288513, 73531393, 65537, 134283265, 65537, 67108993, 67108993, 66562,
  135267393, 140510273, 66, 1089, 68288513, 67108993, 67108993, 73531393, 68288513, 138714087425, 144082796545, 1089,
  68288513, 73531393, 68288513, 138714087425, 144082796545, 134283265, 134283265, 135266369, 207232303169,
  212601012289, 70385665, 72142159873, 134217793, 73532417, 73532417, 68289537, 138715136001, 144083845121, 74579969,
  76437127169, 1, 141557825, 209379786817, 68609, 137363521, 134283265, 3138, 70386689, 212601012289, 67585,
  135331841, 140861571073, 144311102537729, 3138, 71435265, 74580993, 74580993, 71435265, 71435265, 70386689,
  67239937, 71434241, 71434241, 74579969, 67239937, 71434241, 71434241, 74579969, 65, 134283265, 134283265, 3137,
  71434241, 70385665, 70385665, 68609, 137363521, 209379786817, 71435265, 74580993, 140862619649, 141936361473,
  138412097, 138412097, 210453528641, 210453528641, 71434241, 74579969, 141935312897, 140861571073, 71434241,
  141935312897, 71434241, 141935312897, 74580993, 140862619649, 138477569, 134217793, 212601012289, 66561, 66561,
  135266369, 135266369, 140509249, 140509249, 65538, 65537, 134217793, 69634, 69634, 65537, 65537, 134283265,
  134283265, 134283265, 134283265, 67108993, 67108993, 67108993, 67108993, 65537, 65537, 134283265, 134283265,
  134283265, 134283265, 131137, 66, 65, 65537, 65537, 65537, 66561, 66561, 135266369, 135266369, 134283265, 134283265,
  134283265, 134283265, 140509249, 140509249, 135266369, 135266369, 207232303169, 207232303169, 212601012289,
  212601012289, 65537, 65537, 65537, 1089, 68288513, 73531393, 68288513, 138714087425, 144082796545, 1089, 68288513,
  73531393, 68288513, 138714087425, 144082796545, 134284289, 134284289, 134283265, 206292713473, 206225670145,
  134283265, 134283265, 134283265, 134283265, 134283265, 134283265, 206292713473, 206292713473, 206292713473,
  206292713473, 134283265, 134284289, 134284289, 134283265, 206225670145, 140509249, 140509249, 140509249, 140509249,
  134283265, 134283265, 206292713473, 206292713473, 206292713473, 206292713473, 65537, 1, 134283265, 71434241,
  73531393, 141935312897, 140861571073, 71434241, 73531393, 141935312897, 140861571073, 134283265, 206292713473, 1,
  134283265, 134283265, 134283265, 206292713473, 206292713473, 134283265, 134283265, 206292713473, 206292713473,
  134283265, 206292713473, 65537, 138412097, 138412097, 65, 71434241, 74579969, 71434241, 74579969, 67239937,
  69337089, 65, 71434241, 74579969, 71434241, 74579969, 67239937, 69337089, 67239937, 74579969, 71434241, 69633,
  134283265, 134283265, 138412097, 138412097, 65, 67108993, 67108993, 67108993, 67108993, 67239937, 69337089, 65,
  67108993, 67108993, 67108993, 67108993, 67239937, 69337089, 134217793, 134283265, 134283265, 134283265, 65537,
  134283265, 134283265, 65537, 134283265, 134283265, 69633, 134283265, 65537, 206293762049, 206293762049,
  206292713473, 206292648001, 281612617056257, 138477569, 65537, 134284289, 134284289, 68609, 68609, 140509249,
  140509249, 209379786817, 209379786817, 65537, 65537, 65537, 134283265, 134283265, 134283265, 206292713473,
  206292713473, 134283265, 134283265, 206292713473, 206292713473, 134283265, 206292713473, 71303297, 71303297,
  206292648001, 72483841, 65, 139460673, 139461697, 69634, 138412097, 4162, 4162, 4259969, 134283265, 134283265,
  135266369, 207366389825, 210587615297, 66561, 138477569, 65537, 65538, 4162, 65, 66, 71435265, 74580993, 65537,
  65537, 138412097, 138412097, 141557825, 141557825, 66561, 135331841, 138477569, 135266369, 72482817, 72483841,
  65537, 65537, 134283265, 4162, 4162, 6357121, 67108993, 67108993, 68288513, 138580000769, 141801226241, 66561,
  135331841, 65537, 65538, 65537, 65537, 65, 71434241, 74579969, 65537, 65537, 138412097, 138412097, 141557825,
  141557825, 66561, 135331841, 138477569, 69633, 138477569, 65537, 1, 206293762049, 65537, 65537, 65537, 65537, 65537,
  65537, 134283265, 134283265, 134283265, 134283265, 134283265, 206292713473, 206225670145, 134283265, 134283265,
  206292713473, 206292713473, 206292713473, 206292713473, 65537, 65537, 134283265, 134283265, 134283265, 134283265,
  134283265, 206292713473, 206225670145, 134283265, 134283265, 206292713473, 206292713473, 206292713473, 206292713473,
  134283265, 206292713473, 134283265, 206292713473, 206292713473, 134283265, 134283265, 134283265, 134283265,
  134283265, 134283265, 206292713473, 206292713473, 134283265, 134283265, 206292713473, 134283265, 134283265,
  134283265, 134283265, 134283265, 134283265, 206292713473, 206292713473, 134283265, 134283265, 134283265, 134283265,
  134283265, 134283265, 134283265, 134283265, 134283265, 134283265, 134283265, 134283265, 134283265, 65537, 134283265,
  134283265, 65537, 134283265, 134284289, 134284289, 65537, 65537, 134283265, 134283265, 65538, 134284289, 134217793,
  210587615297, 65537, 281612617056257, 65537, 134283265, 65537, 134283265, 69633, 138477569, 65537, 1, 206293762049,
  65537, 65537, 65537, 65537, 65537, 65537, 134283265, 134283265, 134283265, 134283265, 134283265, 206292713473,
  206225670145, 134283265, 134283265, 206292713473, 206292713473, 206292713473, 206292713473, 65537, 65537, 134283265,
  134283265, 134283265, 134283265, 134283265, 206292713473, 206225670145, 134283265, 134283265, 206292713473,
  206292713473, 206292713473, 206292713473, 134283265, 206292713473, 134283265, 206292713473, 206292713473, 134283265,
  134283265, 134283265, 134283265, 134283265, 134283265, 206292713473, 206292713473, 134283265, 134283265,
  206292713473, 134283265, 134283265, 134283265, 134283265, 134283265, 134283265, 206292713473, 206292713473,
  134283265, 134283265, 134283265, 134283265, 134283265, 134283265, 134283265, 134283265, 134283265, 134283265,
  134283265, 134283265, 134283265, 65537, 134283265, 134283265, 65537, 134283265, 134284289, 134284289, 65537, 65537,
  134283265, 134283265, 65538, 134284289, 134217793, 210587615297, 65537, 281612617056257, 65537, 134283265, 65537,
  134283265, 69634, 138412097, 69633, 5, 210588663873, 65537, 65537, 65537, 65537, 65538, 65537, 134283265, 134283265,
  134283265, 134283265, 134283265, 206292713473, 206225670145, 134283265, 134283265, 206293762049, 206293762049,
  206292713473, 206292713473, 65538, 65537, 134283265, 134283265, 134283265, 134283265, 134283265, 206292713473,
  206225670145, 134283265, 134283265, 206293762049, 206293762049, 206292713473, 206292713473, 134283265, 206292648001,
  134283265, 206292648001, 206292713473, 141557825, 138412097, 134284289, 134284289, 134283265, 134283265,
  206292713473, 206292713473, 134283265, 134283265, 206292713473, 141557825, 138412097, 134284289, 134284289,
  134283265, 134283265, 206292713473, 206292713473, 134283265, 134283265, 134284289, 134283266, 134283266, 140509249,
  140509249, 134284289, 134283266, 134283266, 139460673, 139460673, 134284289, 65537, 134283265, 134284289, 65537,
  134283265, 134284289, 134284289, 65537, 65537, 141557825, 138412097, 69634, 138478594, 138412097, 210588663873,
  69633, 286010663501889, 65537, 141557825, 65537, 138412097]

def amps_QCISD : List Nat := [
  1, 1, 1, 1, 1, 1, 1, 1, 1, 1, 1, 1, 1, 1, 1, 70658, 66562, 69633, 69633, 6209, 4161, 65, 65, 67108993, 67108993,
  134283265, 134283265, 65537, 134283265, 134283265, 65537, 1, 1, 65537, 1, 1, 134283266, 134283266, 134283265,
  134283265, 1, 65537, 1, 141557825, 138412097, 2113, 65, 1, 1, 69633, 71681, 1, 1, 69633, 69633, 69633, 1, 65, 65537,
  65537, 65537, 65, 65537, 65537, 69633, 141557825, 138412097, 65537, 65537, 65538, 65537, 134283266, 134283266,
  140509249, 140509249, 65, 65, 67108993, 67108993, 6210, 74580994, 65, 67108993, 65, 74579969, 65537, 5185, 5185,
  65538, 65538, 139461697, 135267393, 66, 71435265, 74580993, 66, 71435265, 74580993, 4161, 3137, 66561, 134283265,
  134283265, 1, 1, 1, 1, 1, 1, 1, 1, 1, 1, 1, 1, 1, 1, 1, 1, 1, 1, 1, 1, 1, 1, 1, 1, 1, 1, 1, 1, 1, 1, 1, 1, 1, 1, 1,
  1, 1, 1, 6209, 4161, 6209, 4161, 65, 65, 4162, 71681, 71681, 69633, 69633, 65537, 65537, 65537, 1, 1, 1, 1, 71682,
  69634, 70657, 70658, 5186, 65, 65, 65537, 65537, 66561, 66562, 66561, 69633, 69633, 69633, 71681, 1, 1, 65537, 65,
  65, 71681, 69633, 65, 4161, 6209, 4161, 134283266, 134283266, 65, 65, 67108994, 67108994, 4162, 65537, 65537,
  134283265, 134283265, 134283265, 134283265, 134283265, 134283265, 134283265, 134283265, 65537, 65537, 65, 65, 65,
  67108993, 67108993, 67108993, 67108993, 65537, 65538, 65537, 70385666, 74579970, 70386690, 74580994, 5, 6210, 65537,
  65537, 65537, 65537, 65537, 71681, 71681, 69633, 69633, 65, 65, 65, 134283265, 134283265, 65537, 65537, 65537, 65,
  67108993, 67108993, 67108993, 67108993, 65, 67108993, 67108993, 67108993, 67108993, 134283265, 134283265, 134283265,
  134283265, 65537, 65537, 65537, 67108993, 67108993, 65, 66, 74579970, 70385666, 74580994, 70386690, 65537, 65, 65,
  65537, 65537, 1, 1, 65537, 138412097, 138412097, 65537, 65537, 141557825, 141557825, 138412097, 138412097,
  141557825, 141557825, 138412097, 138412097, 141557825, 138412097, 69633, 134283265, 134283265, 138412097, 138412097,
  65537, 65537, 134283265, 134283265, 134283265, 134283265, 134283265, 134283265, 134283265, 134283265, 134283265,
  134283265, 65537, 65537, 69633, 65537, 65, 65, 65537, 134284289, 134284289, 69634, 69634, 65537, 65537, 65537,
  65537, 67108993, 67108993, 67108993, 67108993, 65537, 65537, 65537, 65, 67108993, 67108993, 65, 67108993, 67108993,
  65537, 65537, 65537, 65537, 65537, 65537, 65537, 65537, 134283265, 134283265, 134283265, 134283265, 140509249,
  140509249, 140509249, 140509249, 1, 65, 65537, 68609, 134283265, 66, 65537, 69633, 65537, 65538, 134283265,
  134283265, 65538, 1089, 67108993, 67108993, 65537, 68610, 138413121, 141558849, 141558849, 138413121, 71434241,
  71434241, 74579969, 71434241, 71434241, 74579969, 65537, 65, 65, 137363521, 67108993, 67108993, 140510273,
  140510273, 65537, 1, 1, 65537, 138412097, 138412097, 65537, 141557825, 141557825, 138412097, 138412097, 65537,
  141557825, 141557825, 138412097, 138412097, 138412097, 141557825, 69633, 134283265, 134283265, 138412097, 138412097,
  65537, 134283265, 134283265, 134283265, 134283265, 65537, 134283265, 134283265, 134283265, 134283265, 138412097,
  141557825, 65537, 65537, 69633, 65537, 134284289, 134284289, 65537, 65537, 65537, 69634, 69634, 65537, 65537, 65537,
  65537, 134283265, 134283265, 134283265, 134283265, 65537, 65537, 65537, 65, 67108993, 67108993, 65, 67108993,
  67108993, 65537, 65537, 65537, 65537, 65537, 65537, 65537, 65537, 134283265, 134283265, 134283265, 134283265,
  140509249, 140509249, 140509249, 140509249, 65, 66, 65, 69634, 65537, 66, 71435265, 74580993, 65, 71434241,
  74579969, 65, 71434241, 74579969, 72483841, 65, 4161, 4161, 4162, 65537, 139460673, 139461697, 67108993, 67108993,
  65, 65537, 65537, 65, 66, 65, 71434241, 74579969, 65, 71434241, 74579969, 65, 71434241, 74579969, 65537, 65,
  135266369, 72482817, 72483841, 4161, 4161, 65537, 134283265, 134283265, 1, 65537, 65537, 65537, 65537, 69633, 65537,
  65537, 65537, 134283265, 134283265, 65537, 134283265, 134283265, 65537, 65537, 65537, 65537, 134283265, 134283265,
  134283265, 134283265, 134283265, 134283265, 134283265, 134283265, 65537, 65537, 134283265, 134283265, 65538,
  134284289, 65537, 134283265, 65537, 134283265, 1, 65537, 65537, 65537, 65537, 69633, 65537, 65537, 65537, 134283265,
  134283265, 65537, 134283265, 134283265, 65537, 65537, 65537, 65537, 134283265, 134283265, 134283265, 134283265,
  134283265, 134283265, 134283265, 134283265, 65537, 65537, 134283265, 134283265, 65538, 134284289, 65537, 134283265,
  65537, 134283265, 5, 65537, 65537, 65537, 65537, 69634, 65537, 65537, 69633, 141557825, 138412097, 69633, 141557825,
  138412097, 65538, 65537, 65538, 65537, 134283266, 134283266, 140509249, 140509249, 134283266, 134283266, 139460673,
  139460673, 65537, 65537, 141557825, 138412097, 69634, 138478594, 65537, 138412097, 65537, 141557825]

def amps_DCD : List Nat := [
  1, 1, 1, 1, 1, 1, 1, 1, 1, 66561, 70657, 65, 69633, 69633, 65, 134283265, 134283265, 134283265, 134283265,
  134283265, 65537, 65, 1, 134283266, 134283266, 134283265, 134283265, 1, 65537, 65, 65537, 65537, 65, 1, 65538,
  65537, 65537, 65538, 65537, 138412097, 134283266, 134283266, 140509249, 140509249, 65537, 65537, 65, 67108993, 65,
  65, 67108993, 1, 1, 1, 1, 1, 1, 1, 1, 1, 1, 1, 1, 1, 1, 1, 1, 1, 1, 1, 1, 1, 1, 4162, 65, 65, 66, 65, 65, 1089,
  70657, 70658, 65, 65, 65537, 65, 65, 65, 70658, 70657, 70658, 65537, 65537, 1, 1, 65, 1, 1, 134283266, 134283266,
  65, 73531393, 73531393, 65, 73531393, 73531393, 4162, 71435265, 65, 65, 65, 65, 65537, 65537, 138412097, 138412097,
  138412097, 138412097, 65, 66, 65537, 65537, 65537, 65, 1, 69634, 65537, 65537, 1, 69633, 69633, 65537, 65537, 65537,
  65537, 65537, 65537, 1, 65537, 65537, 65537, 65537, 65537, 65537, 1, 65, 65, 65, 67108993, 67108993, 65, 67108993,
  67108993, 65, 67108993, 67108993, 65, 67108993, 67108993, 67108993, 67108993, 1, 65537, 65537, 134283265, 134283265,
  134283265, 134283265, 65537, 134283265, 65537, 65538, 65, 65, 65, 67108993, 67108993, 65, 67108993, 67108993, 65537,
  139460673, 139460673, 65537, 139460673, 139460673, 69634, 69634, 65537, 134283265, 134283265, 65537, 134283265,
  134283265, 65537, 65537, 65537, 65537, 134283265, 134283265, 134283265, 134283265, 65537, 65537, 65537, 65537,
  134283265, 134283265, 134283265, 134283265, 1, 138412097, 138412097, 1, 134283265, 134283265, 138412097, 138412097,
  65537, 134283265, 65537, 65537, 134283265, 134283265, 134283265, 134283265, 69634, 69634, 65537, 138412097, 65537,
  65537, 138412097, 138412097, 138412097, 138412097, 65537, 138412097, 65537, 65537, 138412097, 138412097, 138412097,
  138412097, 65537, 65537, 66561, 134283265, 134283265, 65537, 66562, 140510273, 140510273, 66, 1089, 67108993,
  67108993, 65538, 1089, 67108993, 67108993, 1, 65, 71434241, 71434241, 65, 71434241, 71434241, 4162, 71435265,
  71435265, 4161, 67108993, 67108993, 4161, 67108993, 67108993, 4161, 67108993, 67108993, 65, 4161, 65537, 134283265,
  134283265, 65537, 134283265, 134283265, 69634, 69634, 65537, 140509249, 140509249, 65537, 140509249, 140509249,
  65537, 65537, 65538, 134283266, 134283266, 65538, 134283266, 134283266, 65537, 65537, 65538, 134283266, 134283266,
  65538, 134283266, 134283266, 1, 138412097, 138412097, 65537, 65537, 138412097, 138412097, 138412097, 138412097,
  65537, 138412097, 1, 134283265, 134283265, 138412097, 138412097, 65537, 65537, 138412097, 138412097, 138412097,
  138412097, 65, 71434241, 69634, 69634, 65537, 65537, 134283265, 134283265, 134283265, 134283265, 65537, 134283265,
  65537, 65537, 65537, 65537, 65537, 69633, 1, 65538, 65537, 65537, 65537, 65537, 134283265, 134283265, 134283265,
  134283265, 134283265, 134283265, 134283265, 134283265, 134283265, 134283265, 65537, 65537, 65537, 134283265, 65537,
  65537, 134283265, 65537, 65537, 65537, 69633, 1, 65538, 65537, 65537, 65537, 65537, 134283265, 134283265, 134283265,
  134283265, 134283265, 134283265, 134283265, 134283265, 134283265, 134283265, 65537, 65537, 65537, 134283265, 65537,
  65537, 134283265, 65537, 65537, 65537, 69634, 5, 69634, 65538, 65537, 65538, 65537, 138412097, 134283266, 134283266,
  140509249, 140509249, 138412097, 134283266, 134283266, 139460673, 139460673, 65537, 65537, 65537, 138412097, 65537,
  65537, 138412097]

def amps_DCSD : List Nat := [
  1, 1, 1, 1, 1, 1, 1, 1, 1, 1, 1, 1, 65537, 1, 1, 69633, 65, 1, 69633, 71681, 1, 138412097, 138412097, 140509249,
  65537, 1, 65537, 1, 1, 136314945, 65538, 65538, 136314945, 134217793, 136314945, 65537, 65, 138412097, 69633, 72705,
  134283265, 134283265, 65, 65, 65537, 65537, 5185, 1089, 69633, 69633, 65, 67108993, 67108993, 66561, 69633,
  134283265, 135331841, 66561, 66561, 134284289, 134284289, 1, 65537, 65537, 1, 1, 65, 138412097, 67239937, 69337089,
  69337089, 67108993, 138580000769, 138580000769, 141801226241, 67239937, 69337089, 134283265, 66561, 135266369,
  67108993, 67108993, 67108993, 140509249, 140509249, 138477569, 65, 65, 138714087425, 144082796545, 68288513,
  71303297, 141801226241, 138714087425, 68157569, 68157569, 137506062529, 137506062529, 71435265, 71435265, 65,
  140509249, 65, 65, 1, 1, 1, 69633, 71681, 1, 65537, 1, 6209, 71304321, 144082731073, 134284289, 134284289,
  134283265, 134283265, 206292713473, 206292713473, 206292713473, 134283265, 134283265, 1, 65537, 134283265,
  134283266, 134283266, 139460673, 139460673, 1, 136314945, 134283265, 134283265, 134283265, 134283265, 206292713473,
  206225670145, 134283265, 134283265, 206292713473, 206292713473, 206292713473, 206292713473, 141558849, 213674688641,
  70657, 68609, 1, 1, 1, 4161, 4161, 66561, 69633, 65, 67108993, 67108993, 1, 69633, 65537, 134283265, 1, 65538,
  213674688641, 65537, 65537, 65, 134283265, 206292713473, 134283265, 206292648001, 65537, 65537, 65537, 134283265,
  134283265, 134283265, 134283265, 134283265, 206292713473, 206225670145, 134283265, 134283265, 206292713473,
  206292713473, 206292713473, 206292713473, 65538, 65537, 65537, 134283265, 134283265, 134283265, 134283265,
  134283265, 206292713473, 206292713473, 134283265, 134283265, 206293762049, 206293762049, 206292713473, 206292713473,
  134284289, 134284289, 134283265, 134283265, 206292713473, 206292713473, 206292713473, 134283265, 134283265,
  134284289, 138412097, 134283266, 134283266, 140509249, 140509249, 134284289, 134283265, 134283265, 65537, 134283265,
  134284289, 65537, 134283265, 65537, 134283265, 206292713473, 282780646899777, 65537, 138412097, 65, 65, 67108993,
  5185, 5185, 65, 65, 72482817, 68288513, 66, 71435265, 74580993, 66, 71435265, 74580993, 69633, 68609, 66561,
  135331841, 138477569, 66561, 134283265, 134283265, 135331841, 138477569, 135266369, 207366389825, 210587615297, 1,
  1, 1, 1, 1, 1, 1, 1, 1, 1, 1, 1, 1, 1, 1, 1, 1, 1, 1, 1, 1, 1, 1, 1, 1, 1, 1, 1, 1, 1, 1, 1, 1, 1, 1, 1, 1, 1, 1, 1,
  65537, 6209, 4161, 69633, 1, 1, 4161, 6209, 65, 65537, 1, 1, 1, 65, 1, 69633, 1, 6209, 4161, 1, 1, 1, 69633, 1,
  65537, 69633, 71681, 65537, 65537, 1089, 6209, 65, 69337089, 2113, 65, 69337089, 69337089, 65, 65538, 4161, 7233,
  1089, 68157569, 71303297, 66561, 66562, 70658, 69633, 71434241, 65, 65537, 65537, 69633, 65537, 65537, 69634, 65,
  65537, 65537, 65537, 66561, 69633, 65, 1089, 1090, 65, 69633, 72705, 66561, 66561, 135331841, 138477569, 140509249,
  140509249, 65, 2113, 65537, 65, 65537, 4161, 73531393, 71434241, 65537, 1089, 6209, 65, 65, 65537, 1, 69633, 2113,
  65537, 67585, 66561, 65537, 65537, 65537, 66561, 69633, 65537, 134283265, 134283265, 212600946817, 65, 65, 67108993,
  67108993, 67108993, 66561, 65537, 65537, 65537, 66561, 69633, 65, 65, 137363521, 69633, 69633, 4161, 1, 65537, 5,
  71681, 1, 69634, 1, 69633, 66561, 65537, 65537, 65537, 69633, 66561, 66561, 65537, 65537, 65537, 66561, 69633,
  65537, 134283265, 134283265, 67585, 65537, 65, 137363521, 67585, 65537, 134283265, 134283265, 144082731073,
  134283265, 65, 1, 69633, 65537, 65537, 134283265, 134283265, 65, 67108993, 67108993, 67239937, 69337089, 65,
  67108993, 67108993, 67239937, 69337089, 67108993, 2113, 2113, 69337089, 69337089, 138413121, 210454577217, 68609,
  140574721, 69337089, 65537, 71434241, 73531393, 141935312897, 140861571073, 71434241, 73531393, 141935312897,
  140861571073, 138413121, 134283266, 66561, 66561, 135266369, 135266369, 134283265, 134283265, 134283265, 134283265,
  140509249, 140509249, 135266369, 135266369, 207232303169, 207232303169, 212601012289, 212601012289, 65, 66,
  145156472897, 145157521473, 138413121, 210454577217, 282780646899777, 67239937, 135266369, 135266369, 207232303169,
  207232303169, 212601012289, 212601012289, 69337089, 69338113, 65, 65537, 212601012289, 65, 65, 65, 67108993,
  67108993, 66561, 66561, 135266369, 135266369, 134283265, 134283265, 134283265, 134283265, 140509249, 140509249,
  134283266, 134283266, 138580000769, 134283265, 67585, 73531393, 2113, 65, 134283265, 134283265, 65537, 65537, 65537,
  65537, 65537, 3137, 4161, 134283265, 69633, 65537, 69337089, 65, 7233, 73531393, 65, 67585, 5, 65537, 65537, 65537,
  65537, 3137, 4161, 134283265, 65, 5, 6209, 65537, 2113, 65, 73531393, 73531393, 1089, 68288513, 67108993, 67108993,
  73531393, 1089, 68288513, 67108993, 67108993, 73531393, 66561, 66561, 135266369, 135266369, 134283265, 134283265,
  134283265, 134283265, 140509249, 140509249, 135266369, 135266369, 207232303169, 207232303169, 212601012289,
  212601012289, 134283265, 134283265, 140509249, 140509249, 138412097, 138412097, 209379786817, 209379786817,
  210453528641, 210453528641, 134217793, 134283265, 67108993, 65537, 138580000769, 136314945, 136315969, 65537, 65538,
  65, 65, 7233, 68157569, 213674688641, 213675737217, 138412097, 210453528641, 135266369, 135266369, 207232303169,
  207232303169, 212601012289, 212601012289, 212343451615233, 212601012289, 134283265, 67585, 67585, 73531393,
  73531393, 136314945, 134217793, 65537, 65537, 134283265, 134283265, 134283265, 134283265, 134217793, 134217793,
  136314945, 136314945, 138412097, 210453528641, 65, 1089, 65537, 65537, 65537, 65, 67108993, 67108993, 66561, 66561,
  69633, 66561, 65537, 65537, 65537, 65537, 134283265, 134283265, 66561, 69633, 66561, 65537, 65537, 65537, 134283265,
  134283265, 134283265, 134283265, 134283265, 134283265, 134283265, 134283265, 66, 65, 65665, 69634, 69634, 65537,
  65537, 134283265, 134283265, 140509249, 140509249, 140509249, 140509249, 134283265, 134283265, 131137, 66, 65,
  65537, 65537, 65537, 65538, 65538, 134284289, 134284289, 134283266, 134283266, 134283266, 134283266, 134284289,
  134284289, 134284289, 134284289, 206293762049, 206293762049, 206293762049, 206293762049, 65537, 65537, 65537, 65538,
  65538, 134284289, 134284289, 134283266, 134283266, 134283266, 134283266, 134284289, 134284289, 134284289, 134284289,
  206293762049, 206293762049, 206293762049, 206293762049, 134283265, 134284289, 134284289, 206292713473, 206225670145,
  135266369, 135266369, 207232303169, 207232303169, 212601012289, 212601012289, 134283265, 134283265, 134283265,
  206292713473, 206292713473, 206292713473, 206292713473, 134283265, 134284289, 134284289, 206225670145, 134283265,
  134283265, 206292713473, 206292713473, 206292713473, 206292713473, 1, 65537, 134283265, 71434241, 73531393,
  141935312897, 140861571073, 71434241, 73531393, 141935312897, 140861571073, 134283265, 206292713473, 1, 134283265,
  134283265, 134283265, 206292713473, 206292713473, 134283265, 134283265, 206292713473, 206292713473, 134283265,
  206292713473, 65537, 138412097, 138412097, 65537, 138412097, 138412097, 134283265, 134283265, 65537, 138412097,
  138412097, 134283265, 134283265, 134283265, 138412097, 69633, 134283265, 134283265, 138412097, 138412097, 65537,
  134283265, 134283265, 134283265, 134283265, 65537, 134283265, 134283265, 134283265, 134283265, 134283265, 134283265,
  65537, 138412097, 138412097, 134283265, 134283265, 65537, 138412097, 138412097, 134283265, 134283265, 134283265,
  138412097, 69633, 65537, 206293762049, 206293762049, 138477569, 281612617056257, 206292713473, 206292648001, 65537,
  6209, 73531393, 140861505601, 6209, 73531393, 140861505601, 65537, 65537, 65537, 134283265, 134283265, 134283265,
  206292713473, 206292713473, 134283265, 134283265, 206292713473, 206292713473, 134283265, 206292713473, 138477569,
  138477569, 206292648001, 66561, 135266369, 134283265, 134283265, 140509249, 65537, 134283265, 65537, 66562,
  135267393, 140510273, 140510273, 140510273, 66561, 135266369, 134283265, 134283265, 140509249, 135266369,
  207232303169, 212601012289, 1089, 68288513, 67108993, 67108993, 73531393, 68288513, 138714087425, 144082796545,
  135266369, 207232303169, 212601012289, 137363521, 209446764673, 134217793, 68289537, 138715136001, 144083845121,
  141557825, 213741731969, 1, 141557825, 209379786817, 68609, 137363521, 68610, 137364545, 212601012289, 67585,
  135331841, 140861571073, 144311102537729, 68610, 138413121, 138413121, 137364545, 138413121, 134217793, 134217793,
  138412097, 138412097, 138412097, 138412097, 68609, 134283265, 134283265, 137363521, 138412097, 71434241, 67108993,
  67108993, 71434241, 67108993, 67108993, 3137, 70385665, 140861571073, 138413121, 141558849, 209380835393,
  210454577217, 138412097, 138412097, 210453528641, 210453528641, 138412097, 141557825, 209379786817, 210453528641,
  71434241, 141935312897, 71434241, 141935312897, 74580993, 140862619649, 71303297, 134217793, 212601012289, 69634,
  69634, 65537, 134283265, 134283265, 134283265, 134283265, 65537, 134283265, 134283265, 134283265, 134283265,
  134217793, 65537, 134283265, 140509249, 140509249, 134283265, 65537, 134283265, 140509249, 140509249, 134283265,
  65537, 65537, 65537, 65538, 65538, 134284289, 134284289, 134283266, 134283266, 134283266, 134283266, 134284289,
  134284289, 134284289, 134284289, 206293762049, 206293762049, 206293762049, 206293762049, 65537, 65537, 65537, 65538,
  65538, 134284289, 134284289, 134283266, 134283266, 134283266, 134283266, 134284289, 134284289, 134284289, 134284289,
  206293762049, 206293762049, 206293762049, 206293762049, 134283265, 134284289, 134284289, 206292713473, 206225670145,
  135266369, 135266369, 207232303169, 207232303169, 212601012289, 212601012289, 134283265, 134283265, 134283265,
  206292713473, 206292713473, 206292713473, 206292713473, 134283265, 134284289, 134284289, 206225670145, 134283265,
  134283265, 206292713473, 206292713473, 206292713473, 206292713473, 65537, 134283265, 1, 73531393, 71434241,
  140861571073, 141935312897, 73531393, 71434241, 140861571073, 141935312897, 134283265, 206292713473, 134283265, 1,
  134283265, 134283265, 134283265, 134283265, 206292713473, 206292713473, 206292713473, 206292713473, 134283265,
  206292713473, 65537, 138412097, 138412097, 65537, 65537, 138412097, 138412097, 138412097, 138412097, 134283265,
  134283265, 134283265, 134283265, 67239937, 71434241, 69633, 134283265, 134283265, 138412097, 138412097, 65537,
  65537, 134283265, 134283265, 134283265, 134283265, 134283265, 134283265, 134283265, 134283265, 134283265, 134283265,
  65537, 65537, 138412097, 138412097, 138412097, 138412097, 134283265, 134283265, 134283265, 134283265, 134283265,
  138412097, 69633, 206293762049, 206293762049, 65537, 281612617056257, 206292713473, 206292648001, 138477569, 65537,
  71681, 71681, 137363521, 137363521, 213674688641, 213674688641, 65537, 65537, 65537, 134283265, 134283265,
  134283265, 134283265, 134283265, 206292713473, 206292713473, 206292713473, 206292713473, 134283265, 206292713473,
  71303297, 71303297, 206292648001, 72483841, 65, 139460673, 139461697, 4162, 4259969, 4162, 4162, 4259969, 134283265,
  134283265, 135266369, 207366389825, 210587615297, 66561, 138477569, 65, 65537, 65538, 4162, 65538, 138413121,
  141558849, 65537, 65537, 138412097, 138412097, 141557825, 141557825, 66561, 135331841, 138477569, 65, 139460673,
  139461697, 68288513, 65, 131137, 4162, 4162, 4259969, 134283265, 134283265, 135266369, 207366389825, 210587615297,
  1089, 71303297, 65, 65, 65537, 65538, 65537, 65537, 138412097, 138412097, 141557825, 141557825, 65, 71434241,
  74579969, 1089, 68157569, 71303297, 69633, 138477569, 1, 65538, 206293762049, 65537, 65537, 65537, 65537, 134283265,
  206292713473, 134283265, 206292713473, 65537, 65537, 65537, 134283265, 134283265, 134283265, 134283265, 134283265,
  206292713473, 206225670145, 134283265, 134283265, 206292713473, 206292713473, 206292713473, 206292713473, 65537,
  65537, 65537, 134283265, 134283265, 134283265, 134283265, 134283265, 206292713473, 206225670145, 134283265,
  134283265, 206292713473, 206292713473, 206292713473, 206292713473, 134283265, 134283265, 134283265, 134283265,
  206292713473, 206292713473, 206292713473, 134283265, 134283265, 134283265, 134283265, 134283265, 134283265,
  206292713473, 206292713473, 206292713473, 134283265, 134283265, 134283265, 134283265, 134283265, 134283265,
  134283265, 134283265, 134283265, 134283265, 134283265, 134283265, 134283265, 134283265, 134284289, 134284289,
  134283265, 65537, 134283265, 134283265, 65537, 134283265, 65537, 134217793, 210587615297, 281612617056257, 65537,
  134283265, 65537, 65537, 134283265, 69633, 138477569, 1, 65538, 206293762049, 65537, 65537, 65537, 65537, 134283265,
  206292713473, 134283265, 206292713473, 65537, 65537, 65537, 134283265, 134283265, 134283265, 134283265, 134283265,
  206292713473, 206225670145, 134283265, 134283265, 206292713473, 206292713473, 206292713473, 206292713473, 65537,
  65537, 65537, 134283265, 134283265, 134283265, 134283265, 134283265, 206292713473, 206225670145, 134283265,
  134283265, 206292713473, 206292713473, 206292713473, 206292713473, 134283265, 134283265, 134283265, 134283265,
  206292713473, 206292713473, 206292713473, 134283265, 134283265, 134283265, 134283265, 134283265, 134283265,
  206292713473, 206292713473, 206292713473, 134283265, 134283265, 134283265, 134283265, 134283265, 134283265,
  134283265, 134283265, 134283265, 134283265, 134283265, 134283265, 134283265, 134283265, 134284289, 134284289,
  134283265, 65537, 134283265, 134283265, 65537, 134283265, 65537, 134217793, 210587615297, 281612617056257, 65537,
  134283265, 65537, 65537, 134283265, 69634, 138412097, 5, 69634, 210588663873, 65537, 65537, 65537, 69633, 134283265,
  206292648001, 134283265, 206292648001, 65538, 65537, 65537, 134283265, 134283265, 134283265, 134283265, 134283265,
  206292713473, 206225670145, 134283265, 134283265, 206293762049, 206293762049, 206292713473, 206292713473, 65538,
  65537, 65537, 134283265, 134283265, 134283265, 134283265, 134283265, 206292713473, 206225670145, 134283265,
  134283265, 206293762049, 206293762049, 206292713473, 206292713473, 134284289, 134284289, 134283265, 134283265,
  206292713473, 206292713473, 206292713473, 134283265, 134283265, 134284289, 134284289, 134283265, 134283265,
  206292713473, 206292713473, 206292713473, 134283265, 134283265, 134284289, 138412097, 134283266, 134283266,
  140509249, 140509249, 134284289, 138412097, 134283266, 134283266, 139460673, 139460673, 134284289, 134284289,
  134284289, 65537, 134283265, 134284289, 65537, 134283265, 69633, 138412097, 210588663873, 286010663501889, 65537,
  138412097, 65537, 65537, 138412097]

end Ebcc.Hints
