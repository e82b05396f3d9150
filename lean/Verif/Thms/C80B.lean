import Verif.Tensor.SplitsInto
import Verif.Gen.Hints.SplitB
import Verif.Gen.GCCSD_S_1_1
import Verif.Gen.UCCSD_S_1_1
import Verif.Gen.GCCSD_SD_1_1
import Verif.Gen.UCCSD_SD_1_1
import Verif.Gen.GCCSD_SD_1_2
import Verif.Gen.UCCSD_SD_1_2
import Verif.Thms.C79
import Verif.Thms.C80
/-!
C80, continued: the energies and amplitude equations of the methods with bosons.
-/

set_option maxRecDepth 1000000

namespace Ebcc

theorem C80_CCSD_S_1_1_energy : GeneralAgrees Gen.GCCSD_S_1_1.energy Gen.UCCSD_S_1_1.energy [(chars! "e_cc", [])] :=
  generalAgrees_of_check (hG := Hints.split_energy_CCSD_S_1_1_G) (hU := Hints.split_energy_CCSD_S_1_1_U) rfl (by decide +kernel)

theorem C80_CCSD_SD_1_1_energy : GeneralAgrees Gen.GCCSD_SD_1_1.energy Gen.UCCSD_SD_1_1.energy [(chars! "e_cc", [])] :=
  generalAgrees_of_check (hG := Hints.split_energy_CCSD_SD_1_1_G) (hU := Hints.split_energy_CCSD_SD_1_1_U) rfl (by decide +kernel)

theorem C80_CCSD_SD_1_2_energy : GeneralAgrees Gen.GCCSD_SD_1_2.energy Gen.UCCSD_SD_1_2.energy [(chars! "e_cc", [])] :=
  generalAgrees_of_check (hG := Hints.split_energy_CCSD_SD_1_2_G) (hU := Hints.split_energy_CCSD_SD_1_2_U) rfl (by decide +kernel)

end Ebcc
