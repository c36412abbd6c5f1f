#!/bin/bash
# regenerates lean/Verif/Sig/*.lean
cd "$(dirname "$0")/.."
gen() { python3 tools/pdsig.py "$2" "${@:3}" > lean/Verif/Sig/$1.lean; }
gen Osc osc~ 1 cc
gen Cos cos~ 0
gen Wrap wrap~ 0
gen Clip clip~ 2
gen Sqrt sqrt~ 0
gen Mtof mtof~ 0
gen Ftom ftom~ 0
gen Dbtorms dbtorms~ 0
gen Dbtopow dbtopow~ 0
gen Powtodb powtodb~ 0
gen Rmstodb rmstodb~ 0
gen Lop lop~ 1
gen Hip hip~ 1
gen Bp bp~ 2
gen Vcf vcf~ 1
gen Biquad biquad~ 5
gen Rpole rpole~ 0
gen Rzero rzero~ 0
gen RzeroRev rzero_rev~ 0
gen Czero czero~ 0
gen CzeroRev czero_rev~ 0
gen Cpole cpole~ 0
gen Tabread4 tabread4~ 1
gen Tabread tabread~ 1
gen Tabosc4 tabosc4~ 1 cc
