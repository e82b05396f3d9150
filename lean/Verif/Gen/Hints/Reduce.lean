import Verif.Tensor.Identity
/-!
Hints for claims of `tools/claims.py`.
-/

set_option maxRecDepth 100000

namespace Ebcc.Hints

def energy_CCSD_CCD : List Nat := [
  1, 1, 1, 65, 1, 1, 65537, 65537, 65537]

def energy_CCSDT_CCSD : List Nat := [
  1, 1, 1, 1, 65537, 1, 65537, 65537, 134283265, 1, 1, 1, 1, 65, 65537, 65, 67108993, 65537, 65537, 134283265, 65537,
  65537, 134283265]

def energy_CCSD_S_1_1_CCSD : List Nat := [
  1, 1, 1, 1, 1, 4, 65537, 65537, 134283265, 65537, 1, 1, 1, 1, 65, 65537, 65, 67108993, 65537, 134283265, 65537,
  65537, 65537, 134283265]

def energy_CCSD_SD_1_1_CCSD_S_1_1 : List Nat := [
  1, 1, 1, 1, 1, 1, 1, 1, 4, 65537, 65537, 134283265, 1, 65, 65537, 134283265, 65537, 65537, 1, 1, 1, 1, 1, 1, 1, 1,
  4, 65537, 65537, 134283265, 1, 65, 65537, 134283265, 65537, 65537, 65537, 134283265, 65537, 134283265, 65537, 65537,
  65537, 134283265, 65537, 134283265, 65537, 65537]

def energy_CCSD_SD_1_2_CCSD_SD_1_1 : List Nat := [
  1, 1, 1, 1, 1, 1, 1, 1, 4, 65537, 65537, 134283265, 1, 65, 65537, 134283265, 65537, 65537, 1, 1, 1, 1, 1, 1, 1, 1,
  4, 65537, 65537, 134283265, 1, 65, 65537, 134283265, 65537, 65537, 65537, 134283265, 65537, 134283265, 65537, 65537,
  65537, 134283265, 65537, 134283265, 65537, 65537]

def amps_CCSD_CCD : List Nat := [
  1, 1, 1, 1, 1, 1, 1, 1, 1, 1, 1, 65, 65537, 65, 65, 65537, 67585, 67585, 69, 134217793, 3138, 67239937, 67239941,
  65537, 134284289, 65, 67585, 2113, 2113, 1, 134283265, 134283265, 65537, 65537, 65537, 67239939, 65537, 66561,
  66561, 1093, 1179713, 2113, 65537, 2115, 65, 1, 1, 1, 1, 1, 1, 1, 69, 65, 65537, 134217797, 65538, 134283268,
  67239937, 65, 65537, 65537, 65, 66561, 66561, 134283265, 134283265, 134284289, 68288515, 67585, 67585, 65537, 65537,
  65537, 69, 131137, 1, 134283265, 134283265, 134283265, 134283265, 65537, 65537, 65537, 65537, 134283265, 134283265,
  65537, 65537, 65537, 65537, 65537, 134283265, 65537, 65537, 1, 65537, 65537, 134283265, 134283265, 134283265,
  134283265, 134283265, 134283265, 65537, 65537, 65537, 65537, 65537, 65537, 65537, 134283265]

def amps_CCSD_S_1_1_CCSD : List Nat := [
  1, 1, 1, 1, 1, 1, 1, 1, 1, 1, 1, 1, 1, 1, 1, 1, 1, 65, 65539, 131140, 134283265, 131140, 67239938, 67239938, 7,
  1179714, 1089, 65, 65537, 65537, 134217797, 1, 134217793, 65, 134283265, 65537, 135331842, 66561, 136380417, 67585,
  137428996, 68609, 67, 65537, 65537, 136380423, 135331841, 67, 65537, 67239937, 134284289, 1, 134217793, 65,
  134283265, 65537, 1, 134217797, 134217793, 206158561345, 131137, 66, 68, 65537, 65537, 65537, 1, 134217793, 65, 1,
  65, 134217795, 71, 65537, 65, 131140, 134283265, 131138, 67239938, 206292648001, 134217793, 201457731, 208440197121,
  136380417, 206225670146, 65, 65537, 67, 65537, 206158561345, 131143, 134217797, 206292713473, 134283265, 134283265,
  65537, 134283265, 206292713473, 134283265, 134283265, 65537, 134283265, 206292713473, 134283265, 134283265, 65537,
  134283265, 206292713473, 134283265, 134283265, 65537, 134283265, 206292713473, 134283265, 134283265, 69, 65538, 65,
  131137, 201457735, 137640345602, 131141, 135331841, 134283265, 134283265, 67239939, 134283265, 2, 208440197123,
  136380417, 67585, 207366455297, 135331841, 66561, 134283265, 65537, 206292713473, 206292713473, 134283265, 65537,
  134283265, 65537, 206292713473, 206292713473, 134283265, 65537, 65537, 67585, 67585, 68, 134217793, 134283265,
  135331842, 136380417, 206292713473, 134283265, 206292713473, 134283265, 134283265, 206292713473, 134283265,
  206292713473, 134283265, 134283265, 65, 134217795, 134283265, 70, 67239941, 134283265, 134283265, 134283265,
  134283265, 134283265, 65537, 65, 67587, 67587, 4, 1208156226, 1181761, 1094, 4, 134414404, 136314947, 72, 6,
  281475178168385, 206292648001, 134217793, 66, 1, 1, 1, 2, 67, 71, 72, 8, 2115, 1, 1, 1, 1, 1, 1, 1, 1, 1, 1, 1, 1,
  1, 65, 65, 65537, 67239937, 65537, 65537, 65, 65537, 65, 65537, 65, 65, 65539, 65537, 134283266, 67585, 67585, 69,
  65537, 201457731, 134283271, 65537, 131141, 68719673477, 131137, 134217793, 131140, 3138, 65666, 67239941,
  134283266, 67239937, 137506258945, 67239937, 67239939, 67239941, 134283266, 65537, 65538, 65538, 135331841,
  207366455297, 135331841, 134284289, 135331841, 137640345602, 137640345601, 131140, 136380417, 136380417, 65,
  206225670148, 65539, 67585, 65, 2113, 65666, 2113, 65666, 1, 65539, 134283265, 134283265, 134283265, 134283265,
  134283265, 206292713473, 134283265, 134283265, 134283265, 206292713473, 134283265, 65537, 134283265, 134283265,
  65537, 134283265, 134283265, 65537, 134283265, 65537, 134283265, 206292713473, 134283265, 67239939, 134283265,
  206292713473, 65537, 65537, 66561, 66561, 206292713473, 206292713473, 206292713473, 1093, 65671, 1179713,
  206158495875, 1275199553, 68988108931, 2113, 65666, 65, 66, 65537, 134283266, 2115, 65668, 65, 131140, 65538,
  134283265, 67239941, 67239937, 137640345601, 134283265, 65537, 134283265, 65537, 134283265, 134283265, 206292713473,
  134283265, 65537, 134283265, 65537, 1, 65537, 65537, 1, 65537, 65537, 65537, 134283265, 65537, 134283265, 65537,
  134283265, 65537, 134283265, 134283265, 134283265, 206292713473, 134283265, 65537, 134283265, 206292713473,
  134283265, 134283265, 65537, 134283265, 206292713473, 134283265, 134283265, 65537, 134283265, 206292713473,
  134283265, 134283265, 65537, 134283265, 206292713473, 134283265, 134283265, 134283265, 134283265, 134283265,
  134283265, 134283265, 65537, 206292713473, 206292713473, 134283265, 65537, 134283265, 65537, 206292713473,
  206292713473, 134283265, 65537, 65537, 65537, 206292713473, 134283265, 206292713473, 134283265, 134283265,
  206292713473, 134283265, 206292713473, 134283265, 134283265, 134283265, 134283265, 134283265, 134283265,
  206292713473, 134283265, 65537, 281681269424129, 206292713473, 134283265, 65537, 65537, 1, 65537, 1, 134283265,
  134283265, 134283265, 134283265, 134283265, 134283265, 206292713473, 134283265, 134283265, 206292713473, 134283265,
  134283265, 134283265, 134283265, 134283265, 134283265, 206292713473, 206292713473, 134283265, 65537, 134283265,
  134283265, 65537, 134283265, 134283265, 65537, 134283265, 134283265, 65537, 134283265, 65537, 134283265,
  206292713473, 65537, 134283265, 206292713473, 134283265, 134283265, 134283265, 206292713473, 134283265, 134283265,
  134283265, 206292713473, 65537, 65537, 65537, 65537, 65537, 65537, 206292713473, 206292713473, 206292713473,
  206292713473, 65537, 134283265, 134283265, 206292713473, 206292713473, 281681269424129, 65537, 134283265]

def lams_CCSD_CCD : List Nat := [
  1, 1, 1, 1, 1, 1, 1, 1, 1, 1, 1, 1, 65541, 65537, 65, 65537, 1, 1, 65537, 65537, 65, 65537, 65537, 134283265,
  134284289, 71, 133185, 134283265, 134209, 65, 67587, 1, 67587, 67585, 136380417, 67587, 65537, 134283266, 135331841,
  67587, 66561, 65537, 1, 65537, 70, 65537, 5, 65, 65541, 65541, 65541, 65541, 134283269, 134283265, 134283269,
  134283265, 134283270, 135331841, 134283270, 135331841, 65537, 65537, 134283269, 134283269, 134283269, 134283269,
  65537, 65537, 65541, 134283265, 69206149, 2, 134285315, 134283269, 65537, 134283265, 136383489, 134284289, 67,
  67108997, 67108998, 134283266, 1, 1, 1, 1, 1, 1, 1, 1, 65, 69, 65, 65537, 65537, 134283265, 134284289, 1, 133185,
  67108993, 71, 134209, 65, 65, 65537, 65537, 135331841, 134283266, 65537, 5, 134285317, 66561, 66561, 65541,
  134283269, 65541, 134283269, 65541, 134283269, 65541, 134283269, 135331841, 134283270, 135331841, 134283270,
  136380417, 134283271, 136380417, 134283271, 67585, 67585, 65541, 134283265, 1, 65537, 65537, 65537, 65537, 65537,
  134283265, 134283265, 134283265, 134283265, 134283265, 134283265, 134283265, 134283265, 65537, 65537, 134283265,
  134283265, 134283265, 134283265, 65537, 65537, 65537, 134283265, 134283265, 65537, 1, 134283265, 65537, 65537,
  65537, 134283265, 65537, 134283265, 65537, 134283265, 65537, 134283265, 134283265, 134283265, 134283265, 134283265,
  134283265, 134283265, 134283265, 134283265, 65537, 65537, 65537, 134283265]

def rdm1_CCSD_CCD : List Nat := [
  1, 1, 65, 65537, 65537, 1, 1, 65, 65, 65537, 1, 65537, 1, 65537, 65537]

def rdm1_CCSDT_CCSD : List Nat := [
  1, 1, 1, 1, 1, 1, 65, 1, 65, 65, 65, 65537, 65, 65537, 65537, 135266369, 65537, 65537, 134217793, 134283265, 1, 1,
  1, 1, 65537, 65, 65, 65537, 65537, 65, 70385665, 67239937, 67108993, 65537, 65537, 1, 65537, 65537, 65537, 1, 65537,
  1, 65537, 134283265, 134283265, 134283265, 65537, 1, 134283265, 134283265, 134283265, 1, 1, 65537, 65537, 65537,
  65537]

def rdm1_CCSD_S_1_1_CCSD : List Nat := [
  1, 1, 1, 1, 65, 65537, 65537, 65, 65537, 134217793, 134283265, 65537, 65537, 135266369, 2, 1, 1, 65, 65, 1089, 1, 1,
  1, 1, 65537, 65, 65, 65537, 65537, 65, 70385665, 67239937, 67108993, 65537, 65537, 65537, 65537, 1, 65537, 2, 65537,
  1, 1, 134283265, 134283265, 134283265, 1, 65537, 65537, 1, 134283265, 134283265, 134283265, 65537, 65537, 65537,
  65537]

def rdm1_CCSD_SD_1_1_CCSD_S_1_1 : List Nat := [
  1, 1, 1, 1, 1, 1, 1, 1, 1, 1, 1, 1, 1, 1, 1, 65, 65537, 65537, 65, 65537, 65537, 65, 65537, 134217793, 134283265,
  134283265, 65537, 65537, 134217793, 65537, 135266369, 2, 1, 65, 65, 1, 65, 65, 1089, 1, 1, 1, 1, 1, 1, 1, 1, 1, 1,
  1, 1, 1, 1, 1, 65, 65537, 65537, 65, 65537, 65537, 65, 65537, 134217793, 134283265, 134283265, 65537, 65537,
  134217793, 65537, 135266369, 2, 1, 65, 1, 65, 65, 65, 1089, 65537, 65537, 65537, 1, 65537, 65537, 65537, 1, 1, 1,
  134283265, 134283265, 134283265, 134283265, 134283265, 65537, 65537, 1, 134283265, 134283265, 134283265, 134283265,
  134283265, 65537, 1, 65537, 65537, 65537, 65537, 65537, 65537, 65537]

def rdm1_CCSD_SD_1_2_CCSD_SD_1_1 : List Nat := [
  1, 1, 1, 1, 1, 1, 1, 1, 1, 1, 1, 1, 1, 1, 1, 1, 65, 65537, 65537, 65, 65537, 65537, 65, 65537, 65537, 134283265,
  134217793, 134283265, 65537, 135266369, 65537, 134217793, 2, 1, 65, 1, 65, 65, 65, 1089, 1, 1, 1, 1, 1, 1, 1, 1, 1,
  1, 1, 1, 1, 1, 1, 65, 65537, 65537, 65, 65537, 65537, 65, 65537, 134217793, 134283265, 134283265, 65537, 65537,
  134217793, 65537, 135266369, 2, 1, 65, 65, 1, 65, 65, 1089, 65537, 65537, 65537, 1, 65537, 65537, 65537, 1, 1, 1,
  134283265, 134283265, 134283265, 134283265, 134283265, 65537, 1, 65537, 134283265, 134283265, 134283265, 134283265,
  134283265, 65537, 65537, 1, 65537, 65537, 65537, 65537, 65537, 65537]

def singb_CCSD_SD_1_1_CCSD_S_1_1 : List Nat := [
  1, 1, 1, 1, 1, 1, 1, 1, 1, 1, 1, 1, 1, 65, 1, 1, 1, 1, 1, 1, 1, 1, 1, 1, 1, 1, 1, 1, 65, 1, 1, 1, 65537, 1, 65537, 1]

def singb_CCSD_SD_1_2_CCSD_SD_1_1 : List Nat := [
  1, 1, 1, 1, 1, 1, 1, 1, 1, 1, 1, 1, 1, 1, 1, 65, 65, 1, 1, 1, 1, 1, 1, 1, 1, 1, 1, 1, 1, 1, 1, 1, 65, 65, 1, 1, 1,
  65537, 65537, 1, 65537, 65537, 1]

def rdm1b_CCSD_SD_1_1_CCSD_S_1_1 : List Nat := [
  1, 1, 1, 1, 1, 1, 1, 1, 1, 1, 1, 1, 65, 65, 1, 1, 1, 1, 1, 1, 1, 1, 1, 1, 1, 1, 65, 65, 65537, 65537, 65537, 65537]

def rdm1b_CCSD_SD_1_2_CCSD_SD_1_1 : List Nat := [
  1, 1, 1, 1, 1, 1, 1, 1, 1, 1, 1, 1, 1, 1, 65, 65, 65, 1, 1, 1, 1, 1, 1, 1, 1, 1, 1, 1, 1, 1, 1, 65, 65, 65, 65537,
  65537, 65537, 65537, 65537, 65537]

def coup_CCSD_SD_1_1_CCSD_S_1_1 : List Nat := [
  1, 1, 1, 1, 1, 1, 1, 1, 1, 1, 1, 1, 1, 1, 1, 1, 65537, 134217793, 65537, 134217793, 65, 65537, 65537, 66561, 65537,
  134283265, 134283265, 134283265, 206292648001, 134283265, 67108996, 134283265, 65537, 65, 65537, 65537, 65537, 65,
  65537, 65537, 65537, 65, 65537, 65537, 67239937, 67108993, 69337089, 65537, 134217793, 134283265, 134283265, 2,
  134217793, 134283265, 134217793, 66, 65, 65537, 67108994, 67108993, 65, 65537, 65537, 1089, 65537, 67108993,
  68288513, 65537, 65, 67239937, 65537, 135266369, 1, 65, 65, 206292648001, 206158561345, 206292648001, 206158561345,
  206158561345, 65, 134283265, 134217793, 65, 134283265, 134217793, 134217793, 66, 65, 65, 1, 65537, 1, 65537, 65, 1,
  1, 1, 1, 1, 1, 1, 1, 1, 1, 1, 1, 1, 1, 1, 1, 65537, 134217793, 65537, 134217793, 65, 65537, 65537, 65, 67108994,
  67108993, 66561, 134283265, 134283265, 134283265, 206292648001, 134283265, 67108993, 65537, 134283265, 65, 65537,
  65537, 65537, 65, 65537, 65537, 65537, 65, 65537, 65537, 67239937, 67108993, 69337089, 65537, 134217793, 134283265,
  134283265, 2, 134217793, 134283265, 134217793, 66, 65, 67239937, 65, 65537, 65537, 1089, 65537, 67108993, 68288513,
  65537, 65537, 135266369, 1, 65, 65, 206292648001, 206158561345, 206292648001, 206158561345, 206158561345, 65,
  134283265, 134217793, 65, 134283265, 134217793, 134217793, 66, 65, 65, 1, 65537, 1, 65537, 65, 65537, 65537, 65537,
  65537, 134283265, 65537, 65537, 134283265, 65537, 65537, 1, 1, 65537, 65537, 65537, 134283265, 134283265, 134283265,
  134283265, 65537, 134283265, 65537, 134283265, 134283265, 134283265, 134283265, 134283265, 65537, 134283265,
  206292713473, 134283265, 134283265, 134283265, 134283265, 134283265, 134283265, 134283265, 134283265, 206292713473,
  206292713473, 206292713473, 206292713473, 206292713473, 65537, 134283265, 134283265, 1, 134283265, 134283265,
  206292713473, 134283265, 134283265, 134283265, 134283265, 134283265, 134283265, 134283265, 206292713473,
  206292713473, 206292713473, 206292713473, 206292713473, 65537, 134283265, 134283265, 1, 65537, 65537, 65537, 65537,
  134283265, 134283265, 134283265, 134283265, 65537, 134283265, 134283265, 134283265, 134283265, 65537]

def coup_CCSD_SD_1_2_CCSD_SD_1_1 : List Nat := [
  1, 1, 1, 1, 1, 1, 1, 1, 1, 1, 1, 1, 1, 1, 1, 1, 1, 1, 65537, 65537, 134217793, 65537, 134217793, 65537, 65, 65537,
  65537, 65537, 65537, 65537, 66561, 65537, 134283265, 134283265, 134283265, 134283265, 134283265, 206292648001,
  206292648001, 134283265, 134283265, 67108996, 67108996, 134283265, 134283265, 65537, 65, 65537, 65537, 65537, 65,
  65537, 65537, 65537, 65, 65537, 65537, 67239937, 67108993, 69337089, 65537, 134217793, 134283265, 134283265, 2,
  134217793, 134283265, 134217793, 66, 65, 65537, 65, 65537, 67108994, 67108994, 67108993, 67108993, 65, 65537, 65537,
  1089, 65537, 67108993, 68288513, 65537, 1089, 65, 68288513, 67239937, 65537, 135266369, 1, 65, 65, 206292648001,
  206158561345, 206292648001, 206158561345, 206158561345, 65, 134283265, 134217793, 65, 134283265, 134217793,
  134217793, 66, 65, 65, 65, 1, 65537, 1, 65537, 65, 1, 1, 1, 1, 1, 1, 1, 1, 1, 1, 1, 1, 1, 1, 1, 1, 1, 1, 65537,
  134217793, 65537, 134217793, 65, 65537, 65537, 65537, 65537, 65537, 66561, 65537, 134283265, 134283265, 134283265,
  134283265, 134283265, 206292648001, 206292648001, 134283265, 134283265, 67108996, 67108996, 134283265, 134283265,
  65537, 65, 65537, 65537, 65537, 65, 65537, 65537, 65537, 65, 65537, 65537, 67239937, 67108993, 69337089, 65537,
  134217793, 134283265, 134283265, 2, 134217793, 134283265, 134217793, 66, 65, 65537, 65, 65537, 67108994, 67108994,
  67108993, 67108993, 65, 65537, 65537, 1089, 65537, 67108993, 68288513, 65537, 65, 65, 68288513, 67239937, 65537,
  135266369, 1, 65, 65, 206292648001, 206158561345, 206292648001, 206158561345, 206158561345, 65, 134283265,
  134217793, 65, 134283265, 134217793, 134217793, 66, 65, 65, 65, 1, 65537, 1, 65537, 65, 65537, 65537, 65537, 65537,
  134283265, 65537, 65537, 65537, 134283265, 65537, 65537, 65537, 1, 1, 65537, 65537, 65537, 134283265, 134283265,
  134283265, 134283265, 134283265, 65537, 134283265, 134283265, 65537, 134283265, 134283265, 134283265, 134283265,
  134283265, 65537, 134283265, 134283265, 134283265, 206292713473, 206292713473, 134283265, 134283265, 134283265,
  134283265, 134283265, 134283265, 134283265, 134283265, 134283265, 134283265, 134283265, 206292713473, 206292713473,
  206292713473, 206292713473, 206292713473, 65537, 134283265, 134283265, 1, 134283265, 206292713473, 206292713473,
  134283265, 134283265, 134283265, 134283265, 134283265, 134283265, 134283265, 134283265, 134283265, 134283265,
  134283265, 206292713473, 206292713473, 206292713473, 206292713473, 206292713473, 65537, 134283265, 134283265, 1,
  65537, 65537, 65537, 65537, 65537, 65537, 134283265, 134283265, 134283265, 134283265, 134283265, 65537, 134283265,
  134283265, 134283265, 134283265, 134283265, 65537]

def energy_QCISD_CCD : List Nat := [
  1, 1, 65, 1, 1, 65537, 65537, 65537]

def energy_LCCSD_LCCD : List Nat := [
  1, 1, 1, 65537, 1, 1, 65, 65537, 65537]

def amps_QCISD_CCD : List Nat := [
  1, 1, 1, 1, 1, 1, 1, 1, 1, 1, 1, 65541, 65, 65537, 65, 67239941, 65538, 65537, 67239937, 65, 67585, 67239937, 65537,
  1, 65537, 65537, 65537, 65537, 134283265, 134283265, 134284289, 68288515, 65537, 66561, 66561, 69, 131137, 65539,
  65537, 65, 1, 1, 1, 1, 1, 1, 1, 69, 65, 65537, 134217797, 65538, 134283268, 67239937, 65, 65537, 65537, 65, 66561,
  66561, 134283265, 134283265, 134284289, 68288515, 67585, 67585, 65537, 65537, 65537, 69, 131137, 65537, 1, 65537,
  65537, 65537, 65537, 134283265, 134283265, 134283265, 134283265, 134283265, 134283265, 65537, 65537, 65537, 65537,
  65537, 134283265, 65537, 1, 65537, 65537, 134283265, 134283265, 134283265, 134283265, 134283265, 134283265, 65537,
  65537, 65537, 65537, 65537, 65537, 65537, 134283265]

def amps_LCCSD_LCCD : List Nat := [
  1, 1, 1, 1, 1, 1, 1, 1, 1, 1, 1, 65, 65, 67, 65, 65537, 66, 65537, 65537, 65537, 65, 67585, 65537, 65, 66561, 65537,
  1, 1, 1, 1, 1, 1, 1, 65, 65, 65, 67585, 67585, 65, 66561, 66561, 66, 65537, 65537, 65537, 65537, 1, 65537, 65537,
  65537, 65537, 65537, 65537, 65537, 65537, 65537, 65537, 1, 65537, 65537, 65537, 65537, 65537, 65537, 65537, 65537,
  65537]

def energy_CC2_MP2 : List Nat := [
  1, 1, 1, 65537, 1, 1, 65, 65537, 65537]

def energy_CCD_MP2 : List Nat := [
  1, 1, 65537, 1, 1, 65, 65537, 65537]

def lams1 : List Nat := [
  1, 1, 1, 1, 1, 1, 1, 1, 1, 1, 1, 1, 1, 1, 1, 1, 1, 1, 65, 67587, 67587, 134283270, 65537, 134283265, 135266369,
  136382465, 209379721345, 135266369, 136380422, 208440197126, 207299411974, 135266369, 135267393, 134283265,
  136380422, 2113, 134283269, 65, 65537, 65537, 65537, 2115, 134283265, 65537, 65537, 67108993, 134283266, 65537,
  134283266, 65, 65539, 65539, 65539, 131139, 134283265, 65539, 7, 3276868, 3142, 1179714, 1089, 134283265, 65537, 65,
  65537, 65537, 65537, 131137, 134217793, 134283265, 208440197127, 206292713473, 134217797, 1, 137428994, 68609,
  137428996, 68609, 134283265, 65537, 134217793, 65, 134283265, 65537, 65, 67587, 67587, 3, 131140, 67, 4, 136314947,
  134414404, 131139, 68, 65, 65537, 65537, 65537, 1, 134217793, 65, 2, 2113, 1278345281, 1182785, 1276248129, 1180737,
  1275199553, 1305804537921, 3355639873, 1179713, 1275199553, 3276865, 1089, 1179713, 67, 206292713478,
  281681269424134, 206292713478, 206292713480, 134283270, 7, 67, 2115, 2228293, 1, 71068287109, 69206150, 71, 65537,
  2115, 65537, 67, 65537, 65537, 208373153794, 136380417, 207366455297, 135331841, 2115, 65537, 134285313, 135331841,
  134283269, 134283265, 134283269, 134283265, 1, 206158561345, 131137, 134217797, 134217793, 66, 206292713473,
  134283265, 134283265, 134283265, 65537, 134414402, 131137, 131137, 133185, 65, 68, 65537, 65537, 136380423,
  134283265, 65537, 1, 134217793, 65, 134283265, 65537, 1, 2, 209514987521, 137430021, 209517084673, 137432065,
  137428998, 137431043, 284842365485060, 209446895617, 209446895622, 209516036097, 137428994, 209446895620, 137428994,
  68609, 65, 65537, 134217793, 134283265, 134283265, 134283265, 67109000, 67109000, 67108995, 134283266, 1,
  137506062536, 67109000, 137506062536, 137506062536, 72, 65, 65537, 66, 65537, 67108998, 67108998, 67108995,
  134283265, 65537, 65537, 1, 1, 131143, 66, 1, 68719673479, 67108994, 1, 3139, 65537, 5, 3276865, 3279937, 3143,
  134283265, 134283265, 65537, 7, 71068287107, 69206152, 206292713473, 134283265, 1, 65, 134283269, 134283269,
  134283269, 65541, 206292713477, 134283269, 65538, 134283269, 134283269, 134283269, 65541, 206292713477, 134283269,
  65538, 134283269, 134283269, 134283269, 65541, 206292713477, 134283269, 65538, 134283269, 134283269, 134283269,
  65541, 206292713477, 134283269, 65538, 65, 65537, 134283266, 136380417, 1094, 136381441, 134283265, 134283269,
  134283265, 134283269, 134283265, 65537, 65, 65538, 1, 136380417, 67585, 135331841, 66561, 206292713473, 134283265,
  134283269, 65541, 134283265, 65537, 206292713473, 134283265, 134283269, 65541, 134283265, 65537, 134283269,
  206292713473, 134283265, 134283265, 134283269, 206292713473, 134283265, 134283265, 66, 65539, 65538, 67585, 65541,
  65537, 65541, 65537, 3, 131140, 67, 4, 1179715, 1275199555, 1179715, 1091, 1, 1, 70, 2, 2118, 8, 1, 1, 1, 1, 1, 1,
  1, 1, 1, 1, 1, 1, 1, 1, 1, 65537, 65541, 65539, 65537, 65537, 65, 65537, 65, 65, 65539, 65, 65537, 1, 65539, 1,
  65537, 65537, 65537, 65, 137363521, 65, 131138, 65537, 65537, 206292713479, 134283265, 134283271, 134284289,
  67108994, 71, 131137, 71, 131137, 67108994, 131137, 131137, 133185, 134283265, 134283265, 208373153793, 134209,
  67239937, 65, 65, 67587, 135266369, 1, 65537, 67587, 65539, 67239940, 67585, 136380417, 136380417, 65539, 134283267,
  67587, 65543, 134283267, 134283265, 65537, 134283265, 135331841, 134283266, 134283266, 135331841, 135331841, 67587,
  135266369, 206225670146, 66561, 65538, 65541, 65537, 67239937, 65537, 68288513, 136382465, 209379721345, 65537, 1,
  65537, 70, 131140, 65537, 134283266, 65541, 134283266, 68, 136314947, 131139, 134414404, 65537, 65, 137363521,
  67239937, 67108993, 65537, 134283269, 5, 65, 134283269, 134283269, 65541, 134283269, 134283269, 134283269, 65541,
  134283269, 134283269, 134283269, 65541, 134283269, 134283269, 134283269, 65541, 134283269, 134283265, 134283269,
  134283265, 134283265, 65541, 134283269, 134283265, 134283269, 134283265, 134283265, 65541, 134283269, 135331841,
  134283270, 134283270, 135331841, 135331841, 135331841, 134283270, 134283270, 135331841, 135331841, 65537, 65541,
  65537, 65541, 66, 65538, 65538, 65538, 134283269, 206292713477, 134283269, 206292713477, 134283269, 206292713477,
  134283269, 206292713477, 206292713473, 206292713473, 65537, 206292713473, 65537, 206292713473, 65541, 134283265,
  134283269, 206292713473, 69206149, 139653546181, 2, 70, 134285315, 206292713478, 67108998, 134283269, 68920803461,
  65537, 134283265, 136383489, 208443342849, 134284289, 206293762049, 134283265, 206292713473, 134283265,
  206292713473, 206225670145, 281612482969601, 67, 131137, 67108997, 137506062535, 137506062533, 211243738595589,
  67108997, 67108997, 65541, 134283269, 206292713477, 206292713477, 206292713477, 67108998, 67108998, 66, 131143,
  65538, 134283269, 134285313, 134283265, 206225670146, 134283266, 206292713479, 134283266, 206292713479, 1, 1, 1, 1,
  1, 1, 1, 1, 1, 1, 1, 1, 65, 65, 65537, 67239937, 65537, 65537, 65, 65537, 65, 65537, 65, 65, 65539, 65537,
  134283266, 67585, 67585, 69, 65537, 201457731, 134283271, 65537, 131141, 68719673477, 131137, 134217793, 131140,
  3138, 65666, 67239941, 134283266, 67239937, 137506258945, 67239937, 67239939, 67239941, 134283266, 65537, 65538,
  65538, 135331841, 207366455297, 135331841, 134284289, 135331841, 137640345602, 137640345601, 131140, 136380417,
  136380417, 65, 206225670148, 65539, 67585, 65, 2113, 65666, 2113, 65666, 1, 65539, 134283265, 134283265, 134283265,
  134283265, 134283265, 206292713473, 134283265, 134283265, 134283265, 206292713473, 134283265, 65537, 134283265,
  134283265, 65537, 134283265, 134283265, 65537, 134283265, 65537, 134283265, 206292713473, 134283265, 67239939,
  134283265, 206292713473, 65537, 65537, 66561, 66561, 206292713473, 206292713473, 206292713473, 1093, 65671, 1179713,
  206158495875, 1275199553, 68988108931, 2113, 65666, 65, 66, 65537, 134283266, 2115, 65668, 65, 131140, 65538,
  134283265, 67239941, 67239937, 137640345601, 134283265, 206292713473, 134283265, 134283265, 206292713473, 134283265,
  206292713473, 134283265, 206292713473, 281681269424129, 206292713473, 134283265, 206292713473, 134283265, 65537,
  134283265, 206292713473, 281681269424129, 206292713473, 206292713473, 134283265, 65537, 134283265, 206292713473,
  134283265, 206292713473, 134283265, 134283265, 134283265, 65537, 206292713473, 134283265, 206292713473, 134283265,
  134283265, 134283265, 281681269424129, 206292713473, 206292713473, 206292713473, 134283265, 206292713473, 134283265,
  65537, 134283265, 134283265, 206292713473, 134283265, 206292713473, 206292713473, 65537, 134283265, 134283265,
  134283265, 65537, 206292713473, 134283265, 65537, 1, 1, 65537, 134283265, 206292713473, 134283265, 134283265,
  206292713473, 65537, 134283265, 134283265, 206292713473, 134283265, 206292713473, 134283265, 206292713473,
  134283265, 206292713473, 206292713473, 281681269424129, 65537, 134283265, 134283265, 206292713473, 206292713473,
  281681269424129, 134283265, 134283265, 65537, 134283265, 206292713473, 206292713473, 206292713473, 134283265,
  134283265, 65537, 134283265, 65537, 134283265, 134283265, 134283265, 206292713473, 134283265, 206292713473,
  134283265, 206292713473, 1, 65, 131138, 131142, 132165, 202506305, 133187, 134414404, 134209, 204603457, 131138,
  134414401, 134414406, 203554881, 137640542276]

def mp3 : List Nat := [
  1, 1, 1, 1, 1, 65, 65538, 65, 69337089, 65537, 70385666, 67239937, 1, 1, 1, 1, 1, 65, 65, 66, 65537, 65537, 65537,
  134283265, 65537, 134283265, 134283265, 1, 134217793, 65, 134217793, 137366594, 137365570, 137364546, 137363522]

def dev_lu11 : List ITerm := [
  ⟨-1, 1, [(chars! "g.bov", [9, 2, 6]), (chars! "t1", [3, 6]), (chars! "s1", [9]), (chars! "lu11", [0, 1, 3])]⟩,
  ⟨1, 1, [(chars! "v.oovv", [2, 3, 6, 7]), (chars! "t1", [3, 6]), (chars! "t1", [4, 7]), (chars! "lu11", [0, 1, 4])]⟩,
  ⟨-1, 1, [(chars! "f.ov", [2, 6]), (chars! "t1", [3, 6]), (chars! "lu11", [0, 1, 3])]⟩,
  ⟨-1, 1, [(chars! "g.boo", [9, 2, 3]), (chars! "s1", [9]), (chars! "lu11", [0, 1, 3])]⟩,
  ⟨-1, 1, [(chars! "g.bov", [9, 2, 6]), (chars! "u11", [9, 3, 6]), (chars! "lu11", [0, 1, 3])]⟩,
  ⟨-1, 1, [(chars! "v.ooov", [2, 3, 4, 6]), (chars! "t1", [3, 6]), (chars! "lu11", [0, 1, 4])]⟩,
  ⟨1, 2, [(chars! "v.oovv", [2, 3, 6, 7]), (chars! "t2", [3, 4, 6, 7]), (chars! "lu11", [0, 1, 4])]⟩,
  ⟨-1, 1, [(chars! "v.vooo", [1, 3, 2, 4]), (chars! "t1", [4, 6]), (chars! "lu11", [0, 6, 3])]⟩,
  ⟨-1, 1, [(chars! "g.bov", [0, 3, 1]), (chars! "t1", [3, 6]), (chars! "l1", [6, 2])]⟩,
  ⟨-1, 2, [(chars! "g.bov", [0, 3, 1]), (chars! "t2", [3, 4, 6, 7]), (chars! "l2", [6, 7, 2, 4])]⟩,
  ⟨-1, 1, [(chars! "g.bov", [0, 3, 1]), (chars! "u11", [9, 3, 6]), (chars! "lu11", [9, 6, 2])]⟩,
  ⟨-1, 1, [(chars! "g.bov", [0, 2, 6]), (chars! "u11", [9, 3, 6]), (chars! "lu11", [9, 1, 3])]⟩,
  ⟨-1, 2, [(chars! "g.bov", [0, 2, 6]), (chars! "t2", [3, 4, 6, 7]), (chars! "l2", [1, 7, 3, 4])]⟩,
  ⟨-1, 1, [(chars! "g.bov", [0, 2, 6]), (chars! "t1", [3, 6]), (chars! "l1", [1, 3])]⟩,
  ⟨-1, 1, [(chars! "g.bov", [9, 3, 1]), (chars! "t1", [3, 6]), (chars! "s1", [9]), (chars! "lu11", [0, 6, 2])]⟩,
  ⟨-1, 1, [(chars! "f.vo", [1, 3]), (chars! "t1", [3, 6]), (chars! "lu11", [0, 6, 2])]⟩,
  ⟨1, 1, [(chars! "g.bov", [9, 2, 1]), (chars! "u11", [9, 3, 6]), (chars! "lu11", [0, 6, 3])]⟩,
  ⟨1, 1, [(chars! "v.vvov", [1, 6, 2, 7]), (chars! "t1", [3, 6]), (chars! "lu11", [0, 7, 3])]⟩,
  ⟨-1, 1, [(chars! "g.bov", [0, 3, 6]), (chars! "t1", [3, 7]), (chars! "t1", [4, 6]), (chars! "l2", [1, 7, 2, 4])]⟩,
  ⟨-1, 1, [(chars! "g.boo", [0, 3, 4]), (chars! "t1", [3, 6]), (chars! "l2", [1, 6, 2, 4])]⟩,
  ⟨1, 1, [(chars! "g.bvv", [0, 6, 7]), (chars! "t1", [3, 7]), (chars! "l2", [1, 6, 2, 3])]⟩,
  ⟨1, 1, [(chars! "g.bov", [0, 3, 6]), (chars! "t2", [3, 4, 6, 7]), (chars! "l2", [1, 7, 2, 4])]⟩,
  ⟨-1, 1, [(chars! "v.vvoo", [1, 6, 2, 3]), (chars! "t1", [3, 7]), (chars! "t1", [4, 6]), (chars! "lu11", [0, 7, 4])]⟩,
  ⟨1, 1, [(chars! "v.vvoo", [1, 6, 2, 3]), (chars! "t2", [3, 4, 6, 7]), (chars! "lu11", [0, 7, 4])]⟩,
  ⟨1, 1, [(chars! "v.vvoo", [1, 6, 3, 4]), (chars! "t1", [3, 6]), (chars! "t1", [4, 7]), (chars! "lu11", [0, 7, 2])]⟩,
  ⟨1, 1, [(chars! "g.bvv", [9, 6, 1]), (chars! "s1", [9]), (chars! "lu11", [0, 6, 2])]⟩,
  ⟨-1, 1, [(chars! "v.vvov", [1, 6, 3, 7]), (chars! "t1", [3, 6]), (chars! "lu11", [0, 7, 2])]⟩,
  ⟨1, 2, [(chars! "v.vvoo", [1, 6, 3, 4]), (chars! "t2", [3, 4, 6, 7]), (chars! "lu11", [0, 7, 2])]⟩,
  ⟨-1, 1, [(chars! "g.bov", [9, 3, 1]), (chars! "u11", [9, 3, 6]), (chars! "lu11", [0, 6, 2])]⟩,
  ⟨1, 1, [(chars! "g.bov", [0, 3, 6]), (chars! "u11", [9, 3, 6]), (chars! "lu11", [9, 1, 2])]⟩]

def lu11 : List Nat := [
  1, 1, 1, 1, 1, 1, 1, 1, 1, 1, 1, 1, 1, 1, 1, 1, 1, 1, 1, 1, 1, 1, 1, 1, 1, 1, 1, 1, 1, 1, 65537, 134283265,
  135266369, 135266369, 207299411974, 135266369, 135267393, 134283265, 136380418, 134283265, 134283270, 136380422, 67,
  134283265, 65537, 65537, 65537, 67108993, 134283266, 65537, 134283266, 65, 65537, 65537, 65537, 67108993, 65, 65537,
  65537, 65537, 68920803457, 65, 67587, 209379721345, 136382465, 67587, 208440197126, 136380422, 134283270, 68,
  134283269, 65, 65537, 65537, 68920803461, 66561, 65537, 65537, 134283265, 65, 65539, 65539, 68920803457,
  206292713473, 131139, 134283265, 65539, 7, 3276868, 3142, 1179714, 1089, 134283265, 65537, 67, 65537, 65537, 65537,
  134217793, 134283265, 131137, 208440197127, 206292713473, 1, 67243009, 137428994, 68609, 67243009, 137428996, 68609,
  134283265, 134283265, 65537, 134217793, 134217793, 65, 134283265, 134283265, 65537, 131137, 131141, 66, 65, 67587,
  67587, 3, 134217795, 67, 4, 136314947, 134414404, 131139, 68, 1, 131138, 65, 2, 2113, 3425828929, 3279937,
  1275200577, 1276248129, 1180737, 1275199553, 1305804537921, 1208156225, 1179713, 1275199553, 1179713, 1089, 1179713,
  67, 206292713480, 206292713478, 281681269424134, 206292713478, 134283270, 7, 67, 2115, 2228293, 65, 65537, 65537,
  65537, 71, 65537, 2115, 65537, 65, 65537, 65537, 1, 131137, 65, 134283265, 65537, 65, 65537, 65537, 65537, 65537,
  65537, 67, 65537, 65537, 208373153794, 136380417, 207366455297, 135331841, 2113, 65537, 134285313, 135331841,
  134283269, 134283265, 134283269, 134283265, 1, 206158561345, 206158561345, 131137, 134217793, 134217793, 134217797,
  134217793, 66, 206292713473, 206292713473, 134283265, 134283265, 134283265, 134283265, 134283265, 65537, 201457729,
  134414402, 131137, 131137, 131137, 131137, 133185, 65, 65, 65537, 65537, 65537, 68, 65537, 65537, 136380423,
  134283265, 1, 134217793, 134217793, 65, 134283265, 134283265, 65537, 65, 65537, 65537, 1, 134283265, 65537,
  134283265, 65537, 2, 209514987521, 137430021, 209513942017, 209517084673, 137432065, 137428993, 137428993,
  137428998, 137431043, 209513938945, 137428993, 284979737264129, 284842365485060, 209446895617, 209513938945,
  209513938945, 209446895622, 209516036097, 137428994, 209513938945, 209446895620, 137428994, 209513938945, 137428993,
  68609, 206293762049, 134284293, 206292716545, 206295859201, 134286337, 134283265, 134283265, 134283270, 134285315,
  206292713473, 134283265, 281681202380801, 281543830601732, 206225670145, 206292713473, 206292713473, 206225670150,
  206294810625, 134283266, 206292713473, 206225670148, 134283266, 206292713473, 134283265, 65537, 65, 65537, 65,
  65537, 65537, 134217793, 134283265, 65, 65537, 134283265, 134217793, 134283265, 134283265, 134283265, 134283265,
  65537, 67109000, 67109000, 67109000, 65537, 134217793, 134283265, 65537, 67108995, 67108995, 134283266, 134283266,
  65537, 67108993, 67108993, 1, 137506062536, 67109000, 67109000, 137506062536, 137506062536, 137506062536,
  137506062536, 72, 137506062529, 67108993, 67108993, 137506062529, 137506062529, 137506062529, 137506062529, 65, 65,
  65537, 67108993, 65, 65537, 67108995, 134283265, 65537, 66, 65537, 67108998, 67108998, 67108998, 67108993,
  134283265, 65537, 67108993, 67108993, 1, 134283265, 134283266, 65537, 134283265, 134283268, 65537, 134283265,
  134283265, 65537, 68, 65537, 65537, 131137, 134283265, 1, 134217793, 65, 1, 65, 201457729, 201457729, 131137,
  201457729, 131137, 65, 131137, 1, 67, 65, 131143, 134283265, 134283265, 134283265, 65, 206292713473, 206292713473,
  206292713473, 134283265, 1, 131137, 65, 134283265, 65537, 206292713473, 134283265, 1, 68920803461, 67108993, 1,
  131137, 131143, 66, 65, 65537, 65, 65537, 1, 131137, 65, 1, 206292713473, 206292713473, 134283265, 134283266,
  134283265, 65537, 1, 68719673479, 68719673479, 67108994, 67108994, 1, 65, 65, 67108993, 66, 65539, 65538, 67585,
  65541, 65537, 65541, 65537, 65, 65538, 1, 134217793, 65, 134283265, 65537, 131137, 65, 206225670145, 134283266,
  208440197121, 136380417, 1, 136380417, 136380417, 208440197121, 136380417, 67585, 135331841, 135331841,
  207366455297, 135331841, 66561, 206292713473, 134283265, 134283269, 134283269, 65541, 134283265, 134283265,
  206292713473, 134283265, 65537, 206292713473, 134283265, 134283269, 134283269, 65541, 134283265, 134283265,
  206292713473, 134283265, 65537, 65537, 65537, 3137, 65537, 5, 3276865, 3279937, 3143, 134283265, 134283265, 65537,
  134283269, 206292713477, 134283269, 134283269, 134283265, 134283265, 65538, 65537, 134283269, 134283269, 65541,
  134283269, 206292713477, 134283269, 134283269, 134283265, 134283265, 65538, 65537, 134283269, 134283269, 65541,
  134283269, 206292713477, 134283269, 134283269, 134283265, 134283265, 65538, 65537, 134283269, 134283269, 65541,
  134283269, 206292713477, 134283269, 134283269, 134283265, 134283265, 65538, 65537, 134283269, 134283269, 65541,
  1093, 136381441, 134283265, 134283269, 134283265, 134283269, 134283265, 65537, 65537, 135331841, 135331841,
  136380417, 136380417, 134283269, 206292713473, 134283265, 134283269, 206292713473, 134283265, 134283265, 134283265,
  134283269, 206292713473, 134283265, 134283269, 206292713473, 134283265, 134283265, 134283265, 3, 131140, 67, 4,
  1179715, 1275199555, 1179715, 1091, 65537, 65, 65537, 65537, 65537, 1, 134414401, 131137, 131137, 134209, 65,
  206292713473, 134283265, 134283265, 134283265, 65537, 134283265, 65537, 206292713473, 134283265, 134283265,
  134283265, 65537, 134283265, 65537, 206292713473, 134283265, 134283265, 134283265, 65537, 2, 65, 70, 2118, 8, 66,
  65, 1, 65538, 65537, 65, 1, 65538, 65, 65537, 70, 1, 1, 1, 1, 1, 1, 1, 1, 1, 1, 1, 1, 1, 1, 1, 1, 1, 1, 1, 1, 1, 1,
  1, 1, 1, 1, 1, 1, 1, 1, 65, 67587, 67587, 134283270, 65537, 134283265, 135266369, 136382465, 209379721345,
  135266369, 136380422, 208440197126, 207299411974, 135266369, 135267393, 134283265, 136380422, 66561, 134283265,
  134283265, 134283265, 134283265, 2113, 134283269, 65, 65537, 65537, 65537, 65, 65537, 65537, 65537, 206225670145,
  67108993, 2115, 134283265, 65537, 65537, 67108993, 134283266, 65537, 134283266, 65, 65539, 65539, 65539, 131139,
  134283265, 65539, 7, 3276868, 3142, 1179714, 1089, 134283265, 65537, 65, 65537, 65537, 65537, 131137, 134217793,
  134283265, 208440197127, 206292713473, 134217797, 1, 67243009, 137428994, 68609, 67243009, 137428996, 68609,
  134283265, 134283265, 65537, 134217793, 134217793, 65, 134283265, 134283265, 65537, 131137, 131141, 66, 65, 67587,
  67587, 3, 131140, 67, 4, 136314947, 134414404, 131139, 68, 65, 65537, 65537, 65537, 1, 134217793, 65, 2, 2113,
  1278345281, 1182785, 1275200577, 1276248129, 1180737, 1275199553, 1305804537921, 3355639873, 1179713, 1275199553,
  3276865, 1089, 1179713, 67, 206292713478, 281681269424134, 206292713478, 206292713480, 134283270, 7, 67, 2115,
  2228293, 1, 71068287109, 69206150, 65, 65537, 65537, 65537, 71, 65537, 2115, 65537, 65, 65537, 65537, 1, 131137, 65,
  134283265, 65537, 65, 65537, 65537, 65537, 65537, 65537, 67, 65537, 65537, 208373153794, 136380417, 207366455297,
  135331841, 2115, 65537, 134285313, 135331841, 134283269, 134283265, 134283269, 134283265, 1, 206158561345,
  206158561345, 131137, 134217793, 134217793, 134217797, 134217793, 66, 206292713473, 206292713473, 134283265,
  134283265, 134283265, 134283265, 134283265, 65537, 201457729, 134414402, 131137, 131137, 131137, 131137, 133185, 65,
  206292713473, 206225670146, 134283265, 134283265, 134283265, 134283265, 134285313, 65537, 65, 65537, 65537, 65537,
  65537, 68, 65537, 65537, 136380423, 134283265, 65537, 1, 134217793, 134217793, 65, 134283265, 134283265, 65537, 65,
  65537, 1, 134283265, 65537, 134283265, 65537, 2, 209514987521, 137430021, 209513942017, 209517084673, 137432065,
  137428993, 137428993, 137428998, 137431043, 209513938945, 137428993, 284979737264129, 284842365485060, 209446895617,
  209513938945, 209513938945, 209446895622, 209516036097, 137428994, 209513938945, 209446895620, 137428994,
  209513938945, 137428993, 68609, 206293762049, 134284293, 206292716545, 206295859201, 134286337, 134283265,
  134283265, 134283270, 134285315, 206292713473, 134283265, 281681202380801, 281543830601732, 206225670145,
  206292713473, 206292713473, 206225670150, 206294810625, 134283266, 206292713473, 206225670148, 134283266,
  206292713473, 134283265, 65537, 65, 65537, 65, 65537, 65537, 134217793, 134283265, 134217793, 67108998, 65, 65537,
  134217793, 134283265, 134283265, 134283265, 134283265, 134283265, 67109000, 67109000, 67109000, 65537, 134217793,
  134283265, 67108993, 67108993, 65537, 67108995, 67108995, 134283266, 134283266, 65537, 67108993, 67108993, 67108993,
  1, 137506062536, 67109000, 67109000, 137506062536, 137506062536, 137506062536, 137506062536, 72, 137506062529,
  67108993, 67108993, 137506062529, 137506062529, 137506062529, 137506062529, 65, 65, 65537, 67108993, 65, 65537,
  67108995, 134283265, 65537, 65537, 66, 65537, 67108998, 67108998, 67108998, 67108995, 134283265, 65537, 67108993,
  67108993, 65537, 67108993, 67108993, 1, 134283265, 134283266, 65537, 134283265, 134283268, 65537, 68, 65537, 131137,
  134283265, 1, 134217793, 65, 68920803461, 67108993, 1, 65, 201457729, 201457729, 131137, 201457729, 131137, 65,
  131137, 1, 67, 65, 131143, 65, 206292713473, 206292713473, 206292713473, 134283265, 1, 131137, 65, 68719673473,
  67108993, 131137, 65, 1, 131137, 131143, 66, 1, 68719673479, 68719673479, 67108994, 67108994, 1, 65, 65,
  206292713473, 206292713473, 134283265, 65537, 134283266, 134283265, 1, 65, 65, 67108993, 65537, 65537, 3139, 65537,
  5, 3276865, 3279937, 3143, 134283265, 134283265, 65537, 7, 71068287107, 69206152, 206292713473, 134283265, 1,
  131137, 65, 134283265, 134283269, 134283269, 65537, 134283269, 134283269, 65541, 206292713477, 134283269, 134283265,
  65538, 134283265, 134283269, 134283269, 65537, 134283269, 134283269, 65541, 206292713477, 134283269, 134283265,
  65538, 134283265, 134283269, 134283269, 65537, 134283269, 134283269, 65541, 206292713477, 134283269, 134283265,
  65538, 134283265, 134283269, 134283269, 65537, 134283269, 134283269, 65541, 206292713477, 134283269, 134283265,
  65538, 134217793, 65, 134283265, 65537, 206225670145, 134283266, 208440197121, 136380417, 206225670145, 134283266,
  1094, 136381441, 134283265, 134283269, 134283265, 134283269, 134283265, 65537, 65, 65538, 1, 136380417, 136380417,
  208440197121, 136380417, 67585, 135331841, 135331841, 207366455297, 135331841, 66561, 206292713473, 134283265,
  134283269, 134283269, 65541, 134283265, 134283265, 206292713473, 134283265, 65537, 206292713473, 134283265,
  134283269, 134283269, 65541, 134283265, 134283265, 206292713473, 134283265, 65537, 65537, 65537, 135331841,
  135331841, 136380417, 136380417, 134283269, 206292713473, 134283265, 134283269, 206292713473, 134283265, 134283265,
  134283265, 134283269, 206292713473, 134283265, 134283269, 206292713473, 134283265, 134283265, 134283265, 65537, 66,
  65539, 65538, 67585, 65541, 65537, 65541, 65537, 3, 131140, 67, 4, 1179715, 1275199555, 1179715, 1091, 65, 67108993,
  65537, 67108997, 1, 65, 65537, 209446895617, 137428993, 68609, 137428993, 137432065, 68, 137506062536, 67109000, 1,
  206225670146, 134283265, 134283271, 134284289, 134283265, 65538, 1, 65537, 65538, 134283265, 70, 2, 65, 2118, 8, 65,
  1, 66, 1, 70, 65, 134283265, 134283265, 65537, 65537, 65537, 65537, 1, 65537, 65537, 65537, 65537, 134283265,
  134283265, 65537, 206292713473, 206292713473, 134283265, 134283265, 134283265, 134283265, 134283265, 65537,
  134283265, 134283265, 134283265, 134283265, 134283265, 134283265, 134283265, 65537, 206292713473, 134283265,
  134283265, 134283265, 206292713473, 134283265, 65537, 134283265, 134283265, 206292713473, 134283265, 206292713473,
  134283265, 134283265, 134283265, 134283265, 65537, 65537, 134283265, 1, 65537, 65537, 1, 1, 1, 1, 206292713473, 1,
  1, 1, 1, 206292713473, 1, 1, 1, 134283265, 1, 1, 1, 134283265, 1, 1, 1, 134283265, 1, 1, 1, 134283265, 1, 1, 1,
  134283265, 1, 1, 1, 134283265, 1, 1, 1, 134283265, 1, 1, 1, 134283265, 1, 1, 1, 134283265, 1, 1, 1, 134283265, 1, 1,
  1, 134283265, 1, 1, 1, 134283265, 1, 1, 1, 1, 206292713473, 1, 1, 1, 134283265, 1, 1, 1, 134283265, 1, 1, 1,
  134283265, 1, 1, 1, 1, 206292713473, 1, 1, 1, 134283265, 1, 1, 1, 134283265, 1, 1, 1, 134283265, 1, 1, 1, 1,
  206292713473, 1, 1, 1, 134283265, 1, 1, 1, 1, 206292713473, 1, 1, 1, 134283265, 1, 1, 1, 134283265, 1, 1, 1,
  134283265, 1, 1, 1, 134283265, 1, 1, 1, 134283265]

def eom_r_ip : List Nat := [
  1, 1, 1, 1, 1, 1, 1, 1, 1, 1, 65537, 65, 65537, 69, 65537, 67, 65, 65, 65, 65537, 1, 1, 1, 1, 1, 1, 1, 1, 1, 1, 1,
  65, 131143, 66, 134283268, 65538, 134283267, 69, 65537, 1, 65537, 1, 65537, 67239941, 134283265, 65537, 134283265,
  65537, 134283265, 134283265, 65537, 131143, 66, 134285313, 134285315, 65544, 134283265, 134283265, 65537, 134283265,
  134283265, 134283265, 65537, 134283265, 65, 65, 65538, 134283267, 1, 1, 1, 1, 1, 1, 65, 69, 65537, 65537, 67, 65,
  65, 65537, 65537, 65537, 1, 1, 1, 1, 1, 1, 1, 1, 1, 1, 131143, 65537, 134283268, 65538, 134283267, 69, 65537, 65537,
  1, 65537, 67239941, 65537, 134283265, 134283265, 134283265, 65537, 134283265, 65537, 66, 131143, 133187, 72, 133185,
  65537, 134283265, 134283265, 134283265, 65, 131137, 131137, 131137, 65, 65, 65538, 134283267, 65537, 65537, 65537,
  134283265, 65537, 65537, 65537, 134283265, 134283265, 134283265, 65537, 134283265, 134283265, 65537, 134283265,
  65537, 134283265, 65537, 134283265, 134283265, 65537, 134283265, 65537, 134283265, 134283265, 65537, 134283265,
  134283265, 65537, 134283265, 134283265, 134283265, 65537, 134283265, 134283265, 65537, 134283265, 65537, 134283265,
  134283265, 134283265, 65537, 134283265, 134283265, 65537, 134283265, 65537, 65537, 134283265, 134283265, 65537,
  134283265, 65537, 134283265, 134283265, 134283265, 65537, 134283265, 134283265, 134283265]

def eom_l_ip : List Nat := [
  1, 1, 1, 1, 1, 1, 1, 1, 1, 1, 65537, 65537, 65537, 65541, 65537, 65539, 65, 65, 65, 65537, 1, 1, 1, 1, 1, 1, 1, 1,
  1, 1, 1, 134286337, 65538, 133185, 65537, 66, 1, 65, 65537, 65537, 1, 67108993, 134283265, 65537, 134283265, 65537,
  65537, 134283265, 65541, 132161, 66, 72, 1182785, 132161, 131137, 69, 132165, 133187, 65, 134209, 65538, 134285313,
  1, 1, 1, 1, 1, 1, 65, 69, 65537, 65537, 67, 65537, 65, 65537, 65537, 65537, 1, 1, 1, 1, 1, 1, 1, 1, 1, 1, 1,
  134285313, 134286337, 65538, 65, 65537, 65, 65537, 65537, 1, 134283265, 66, 65537, 134283265, 134283265, 65537,
  65537, 134283265, 65541, 66, 132161, 135332865, 134286337, 135331841, 66561, 65, 134209, 132165, 133187, 66, 133185,
  134283265, 134283265, 134283265, 65537, 134283265, 134283265, 65537, 134283265, 65537, 134283265, 134283265,
  134283265, 134283265, 65537, 65537, 134283265, 134283265, 134283265, 65537, 134283265, 134283265, 134283265, 65537,
  134283265, 65537, 134283265, 65537, 134283265, 65537, 65537, 65537, 134283265, 65537, 134283265, 65537, 65537,
  134283265, 65537, 65537, 134283265, 134283265, 65537, 65537, 134283265, 134283265, 65537, 65537, 65537, 134283265,
  65537, 65537, 134283265]

def eom_r_ea : List Nat := [
  1, 1, 1, 1, 1, 1, 1, 1, 1, 1, 65, 65537, 67, 67, 65, 65, 65537, 69, 1, 1, 1, 1, 1, 1, 1, 1, 1, 1, 1, 1, 66, 65, 65,
  65537, 1, 65541, 65537, 65537, 131138, 65539, 65537, 65, 65, 65538, 134283271, 1179716, 1090, 65537, 1, 65537,
  65537, 67241985, 65, 134283265, 65537, 134283265, 65541, 134283265, 65537, 134283265, 65541, 134283265, 134283265,
  132161, 70, 65538, 134283267, 67239937, 67239937, 131137, 131137, 66, 131137, 134283265, 134283265, 65538,
  134283265, 65539, 65, 134283271, 65538, 1, 1, 1, 1, 1, 65, 65537, 67, 67, 65, 65, 65537, 69, 1, 1, 1, 1, 1, 1, 1, 1,
  1, 1, 65537, 65538, 134283271, 66, 134283268, 65537, 65537, 131138, 65, 65537, 1, 65537, 134283265, 65537, 67241985,
  65, 134283265, 134283265, 134283265, 65541, 65537, 134283265, 134283265, 65541, 65537, 134283265, 132161, 70,
  67239937, 67239937, 65538, 134283267, 65538, 134283265, 134283265, 134283265, 65538, 134283265, 134283265,
  134283265, 65539, 65537, 65538, 134283271, 65537, 65537, 134283265, 65537, 65537, 65537, 65537, 134283265,
  134283265, 65537, 134283265, 65537, 134283265, 65537, 134283265, 65537, 134283265, 65537, 134283265, 134283265,
  134283265, 65537, 65537, 134283265, 134283265, 134283265, 134283265, 134283265, 65537, 134283265, 134283265,
  134283265, 65537, 134283265, 134283265, 65537, 134283265, 134283265, 134283265, 65537, 65537, 134283265, 134283265,
  65537, 65537, 134283265, 134283265, 65537, 134283265, 134283265, 65537, 134283265, 65537, 134283265, 134283265,
  134283265, 65537, 134283265, 134283265, 134283265]

def eom_l_ea : List Nat := [
  1, 1, 1, 1, 1, 1, 1, 1, 1, 1, 65537, 65537, 67, 65539, 65, 65, 65541, 65537, 1, 1, 1, 1, 1, 1, 1, 1, 1, 1, 1, 1, 1,
  65537, 71, 134284289, 65538, 134209, 65537, 65537, 65539, 1, 1, 1, 65, 69, 134283269, 134283265, 65537, 65541,
  65538, 134283269, 134283265, 65537, 65541, 65538, 134283269, 65538, 134285313, 134283269, 135334919, 134283267,
  65539, 132165, 133187, 65, 134209, 134284289, 65538, 67108994, 1, 1, 1, 1, 1, 65, 65537, 67, 67, 65, 65, 69, 65537,
  1, 1, 1, 1, 1, 1, 1, 1, 1, 1, 66, 132161, 134209, 66, 65, 65, 65, 65537, 134283265, 1, 134285317, 134283269, 65, 69,
  65538, 134283269, 65541, 65537, 134283265, 65538, 134283269, 65541, 65537, 134283265, 65538, 134285313, 67108994,
  134286343, 135331843, 66563, 65537, 134286337, 134284293, 134285315, 66, 132161, 134283265, 134283265, 65537,
  134283265, 134283265, 65537, 134283265, 134283265, 65537, 134283265, 134283265, 134283265, 134283265, 65537, 65537,
  134283265, 134283265, 134283265, 65537, 134283265, 65537, 65537, 134283265, 134283265, 65537, 65537, 65537,
  134283265, 134283265, 65537, 65537, 65537, 134283265, 65537, 134283265, 134283265, 134283265, 134283265, 65537,
  65537, 65537, 134283265, 65537, 65537, 134283265, 65537, 134283265, 65537, 65537, 134283265, 65537, 134283265]

end Ebcc.Hints
