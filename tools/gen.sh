#!/bin/sh
# Write lean/Verif/Gen from the modules in $1 (default /repo/ebcc/codegen).
set -e
cd "$(dirname "$0")/.."
src=${1:-/repo/ebcc/codegen}
gen=lean/Verif/Gen
mkdir -p $gen/Hints
al=energy,update_amps,update_lams
a=energy,update_amps
python3 tools/gencode.py $src $gen RMP2:energy UMP2:energy \
  RLCCD:$a ULCCD:$a RLCCSD:$a ULCCSD:$a RCCD:$al UCCD:$al RCC2:$al UCC2:$al RCCSD:$al UCCSD:$al \
  RQCISD:$a UQCISD:$a RDCD:$a UDCD:$a RDCSD:$a UDCSD:$a
python3 tools/gencode.py $src $gen RDFLCCD:$a RDFLCCSD:$a RDFCCD:$al RDFCC2:$al RDFCCSD:$al RDFQCISD:$a \
  RDFDCD:$a RDFDCSD:$a
E=""; A=""; D=""
for m in LCCD LCCSD CCD CC2 CCSD QCISD DCD DCSD; do E="$E energy_$m"; A="$A amps_$m"; D="$D dfenergy_$m dfamps_$m"; done
python3 tools/hints.py $src $gen/Hints/Energy.lean energy_MP2 $E
python3 tools/hints.py $src $gen/Hints/Amps.lean $A
python3 tools/hints.py $src $gen/Hints/Lams.lean lams_CCD lams_CC2 lams_CCSD
python3 tools/hints.py $src $gen/Hints/DF.lean $D dflams_CCD dflams_CC2 dflams_CCSD
rd=make_rdm1_f,make_rdm2_f
b=make_sing_b_dm,make_rdm1_b,make_eb_coup_rdm
python3 tools/gencode.py $src $gen GCCD:$al,$rd GCC2:$al,$rd GCCSD:$al,$rd GCCSDT:$al,$rd GCCSD_S_1_1:$al,$rd,$b \
  GCCSD_SD_1_1:$al,$rd,$b GCCSD_SD_1_2:$al,$rd,$b
python3 tools/claims.py $src $gen/Hints/Grad.lean grad_CCD grad_CCSD grad_CCSDT dev_CC2 dev_CCSD_S_1_1 \
  dev_CCSD_SD_1_1 dev_CCSD_SD_1_2 gamps_CC2 gamps_CCSD_S_1_1 gamps_CCSD_SD_1_1 gamps_CCSD_SD_1_2
python3 tools/claims.py $src $gen/Hints/Density.lean dent_CCD dent_CC2 dent_CCSD dent_CCSDT dent_CCSD_S_1_1 \
  dent_CCSD_SD_1_1 dent_CCSD_SD_1_2 dene_CCD dene_CC2 dene_CCSD dene_CCSDT dene_CCSD_S_1_1 dene_CCSD_SD_1_1 \
  dene_CCSD_SD_1_2 gamps_CCSD dev:denx_CC2
h=""; for k in ip ea ee; do for l in "" l; do h="$h,hbar_${l}matvec_${k}_intermediates,hbar_${l}matvec_$k"; done; done
h=${h#,}; r=$(echo "$h" | sed "s/,hbar_lmatvec[a-z_]*//g")
python3 tools/gencode.py $src $gen GMP2@GMP2Eom:$r GCCD@GCCDEom:$h GCC2@GCC2Eom:$h GCCSD@GCCSDEom:$h
python3 tools/claims.py $src $gen/Hints/Eom.lean ip_CCD ea_CCD ee_CCD ip_CCSD ea_CCSD ee_CCSD ip_MP2 ea_MP2 jac_CCD \
  jac_CC2 jac_CCSD dev:ip_CC2 dev:ea_CC2 dev:ee_CC2 dev:ee_MP2
f=$(echo "$h" | sed "s/,hbar_l*matvec_ee[a-z_]*//g"); s=$(echo "$r" | sed "s/,hbar_l*matvec_ee[a-z_]*//g")
for c in R U; do
  python3 tools/gencode.py $src $gen ${c}MP2@${c}MP2Eom:$s
  for m in CCD CC2 CCSD DFCCD DFCC2 DFCCSD; do python3 tools/gencode.py $src $gen $c$m@$c${m}Eom:$f; done
done
python3 tools/gencode.py $src $gen GMP2:energy GMP3:energy UMP3:energy GLCCD:$a GLCCSD:$a GQCISD:$a
python3 tools/splits.py $src $gen/Hints/Split.lean energy_MP2 energy_MP3 energy_LCCD energy_LCCSD energy_CCD energy_CC2 \
  energy_CCSD energy_QCISD amps_LCCD amps_LCCSD amps_CCD amps_CC2 amps_CCSD amps_QCISD lams_CCD lams_CC2 lams_CCSD
python3 tools/gencode.py $src $gen UCCSD_S_1_1:$al UCCSD_SD_1_1:$al UCCSD_SD_1_2:$al
python3 tools/splits.py $src $gen/Hints/SplitB.lean $(for m in S_1_1 SD_1_1 SD_1_2; do
  echo energy_CCSD_$m amps_CCSD_$m; done)
python3 tools/gencode.py $src $gen RCCSD_S_1_1:$al RCCSD_SD_1_1:$al RCCSD_SD_1_2:$al
python3 tools/hints.py $src $gen/Hints/Bosons.lean $(for m in S_1_1 SD_1_1 SD_1_2; do
  echo energy_CCSD_$m amps_CCSD_$m; done)
c=""; for n in 1 2 3 4; do c="$c,convert_c${n}_to_t$n,convert_t${n}_to_c$n"; done
python3 tools/gencode.py $src $gen GecCC:${c#,} UecCC:${c#,} RecCC:${c#,}
python3 tools/expcoeff.py $src $gen/Hints/Exp.lean $(for m in GecCC UecCC; do
  echo ${c#,} | tr , '\n' | sed "s/^/$m:/"; done)
python3 tools/expcoeffr.py $src $gen/Hints/ExpR.lean
python3 tools/gencode.py $src $gen GCCSDTQ:update_amps/t1new+t2new GecCC@GecCCExt:update_amps_external,update_amps_mixed
python3 tools/claims.py $src $gen/Hints/Ext.lean external
l=""
for x in energy amps lams rdm1 rdm2; do
  l="$l $x:CCSD:CCD $x:CCSDT:CCSD $x:CCSD_S_1_1:CCSD $x:CCSD_SD_1_1:CCSD_S_1_1 $x:CCSD_SD_1_2:CCSD_SD_1_1"
done
l=$(echo " $l " | sed 's/ lams:CCSD_SD_1_2:CCSD_SD_1_1 / /; s/ rdm2:CCSD_SD_1_1:CCSD_S_1_1 / /; s/ rdm2:CCSD_SD_1_2:CCSD_SD_1_1 / /')
for x in singb rdm1b coup; do l="$l $x:CCSD_SD_1_1:CCSD_S_1_1 $x:CCSD_SD_1_2:CCSD_SD_1_1"; done
for x in energy amps; do l="$l $x:QCISD:CCD $x:LCCSD:LCCD"; done
l="$l energy:CC2:MP2 energy:CCD:MP2 lams1 mp3 dev:lu11"
for k in ip ea ee; do for x in r l; do l="$l eom:$x:$k"; done; done
python3 tools/claims.py $src $gen/Hints/Reduce.lean $l
