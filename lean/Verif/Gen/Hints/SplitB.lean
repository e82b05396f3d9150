/-!
Hints for claims of `tools/splits.py`.
-/

set_option maxRecDepth 100000

namespace Ebcc.Hints

def split_energy_CCSD_S_1_1_G : List Nat := [
  1, 1, 1, 1, 1, 1, 1, 1, 4, 65537, 65537, 134283265, 1, 65, 65537, 134283265, 65537, 65537]

def split_energy_CCSD_S_1_1_U : List Nat := [
  1, 1, 1, 1, 1, 1, 1, 1, 1, 1, 1, 1, 1, 1, 1, 1, 5, 5, 4, 65537, 66561, 65537, 134283265, 134283265, 5, 5, 4, 65537,
  66561, 65537, 134283265, 134283265, 1, 65537, 65537, 134283265, 1, 65, 65, 65, 131137, 131137, 65537, 65537, 65537,
  65537, 65537, 66561, 65537, 66561, 67589, 68613, 65537, 66561, 134283265, 134283265, 134283265, 67239941, 134283265,
  134283265, 65537, 65537, 134283265, 134283265, 65537, 65537, 65537]

def split_energy_CCSD_SD_1_1_G : List Nat := [
  1, 1, 1, 1, 1, 1, 1, 1, 4, 65537, 65537, 134283265, 1, 65, 65537, 134283265, 65537, 65537]

def split_energy_CCSD_SD_1_1_U : List Nat := [
  1, 1, 1, 1, 1, 1, 1, 1, 1, 1, 1, 1, 1, 1, 1, 1, 5, 5, 4, 65537, 65537, 66561, 134283265, 134283265, 5, 5, 4, 65537,
  66561, 65537, 134283265, 134283265, 1, 65537, 65537, 134283265, 1, 65, 65, 65, 131137, 131137, 65537, 65537, 65537,
  65537, 65537, 66561, 65537, 66561, 67589, 68613, 65537, 66561, 134283265, 134283265, 134283265, 67239941, 134283265,
  134283265, 65537, 65537, 134283265, 134283265, 65537, 65537, 65537]

def split_energy_CCSD_SD_1_2_G : List Nat := [
  1, 1, 1, 1, 1, 1, 1, 1, 4, 65537, 65537, 134283265, 1, 65, 65537, 134283265, 65537, 65537]

def split_energy_CCSD_SD_1_2_U : List Nat := [
  1, 1, 1, 1, 1, 1, 1, 1, 1, 1, 1, 1, 1, 1, 1, 1, 5, 5, 4, 65537, 65537, 66561, 134283265, 134283265, 5, 5, 4, 65537,
  65537, 66561, 134283265, 134283265, 1, 65537, 65537, 134283265, 1, 65, 65, 65, 131137, 131137, 65537, 65537, 65537,
  65537, 65537, 66561, 65537, 66561, 67589, 68613, 65537, 66561, 134283265, 134283265, 134283265, 67239941, 134283265,
  134283265, 65537, 65537, 134283265, 134283265, 65537, 65537, 65537]

end Ebcc.Hints
