/-!
Hints for claims of `tools/hints.py`.
-/

set_option maxRecDepth 100000

namespace Ebcc.Hints

def energy_MP2 : List Nat := [
  1, 1, 65537, 65537, 1, 1, 1, 1, 1, 1, 1, 1, 65, 65, 65537, 65, 65]

def energy_LCCD : List Nat := [
  1, 1, 65537, 65, 1, 1, 1, 1, 1, 1, 1, 1, 65537, 65, 65, 65537, 65537]

def energy_LCCSD : List Nat := [
  1, 1, 1, 1, 65, 65537, 65537, 1, 1, 1, 1, 1, 1, 1, 1, 1, 1, 1, 1, 65537, 65, 65, 65, 65, 65, 65]

def energy_CCD : List Nat := [
  1, 1, 65, 65, 1, 1, 1, 1, 1, 1, 1, 1, 65, 65, 65537, 65, 65]

def energy_CC2 : List Nat := [
  1, 1, 1, 1, 1, 1, 4161, 6209, 65, 65537, 65, 71434241, 74579969, 1, 1, 1, 1, 1, 1, 1, 1, 1, 1, 1, 1, 1, 1, 1, 1,
  6209, 4161, 69633, 6209, 4161, 65, 65, 65, 65, 65537, 65, 71434241, 74579969, 65537, 134283265, 134283265]

def energy_CCSD : List Nat := [
  1, 1, 1, 1, 1, 1, 71681, 69633, 65, 65, 65537, 134283265, 134283265, 1, 1, 1, 1, 1, 1, 1, 1, 1, 1, 1, 1, 1, 1, 1, 1,
  4161, 6209, 4161, 69633, 71681, 65, 65, 65, 65, 65, 65, 71434241, 74579969, 65, 71434241, 74579969]

def energy_QCISD : List Nat := [
  1, 1, 65537, 65537, 1, 1, 1, 1, 1, 1, 1, 1, 65, 65, 65, 65, 65]

def energy_DCD : List Nat := [
  1, 1, 65537, 65537, 1, 1, 1, 1, 1, 1, 1, 1, 65, 65, 65537, 65537, 65537]

def energy_DCSD : List Nat := [
  1, 1, 1, 1, 1, 1, 69633, 71681, 65537, 65537, 65537, 134283265, 134283265, 1, 1, 1, 1, 1, 1, 1, 1, 1, 1, 1, 1, 1, 1,
  1, 1, 69633, 6209, 4161, 4161, 6209, 65537, 65537, 65537, 65, 65, 65, 71434241, 74579969, 65537, 134283265,
  134283265]

end Ebcc.Hints
