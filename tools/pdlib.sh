#!/bin/sh
# regenerates lean/Verif/Lib/*.lean from /repo
cd "$(dirname "$0")"
gen() { python3 pdlib.py "$1" "$2" > ../lean/Verif/Lib/"$3".lean; }
gen metro 1 Metro
gen delay 1 Delay
gen pipe 1 Pipe
gen makenote 2 Makenote
gen timer 0 Timer
gen change 1 Change
gen stripnote 0 Stripnote
gen until 0 Until
gen line 2 Line
gen swap 1 Swap
gen spigot 1 Spigot
gen moses 1 Moses
gen int 1 Int
gen poly 2 Poly
midi() { python3 pdlib.py "$1" "$2" "$3":__hv_"$1" > ../lean/Verif/Lib/"$4".lean; }
midi notein 1 in Notein
midi ctlin 2 in Ctlin
midi bendin 1 in Bendin
midi touchin 1 in Touchin
midi polytouchin 1 in Polytouchin
midi pgmin 1 in Pgmin
midi noteout 1 out Noteout
midi ctlout 2 out Ctlout
midi bendout 1 out Bendout
midi touchout 1 out Touchout
midi polytouchout 1 out Polytouchout
midi pgmout 1 out Pgmout
gen lop~ 1 Lop
gen hip~ 1 Hip
gen mtof 0 Mtof
gen ftom 0 Ftom
gen dbtorms 0 Dbtorms
gen rmstodb 0 Rmstodb
gen dbtopow 0 Dbtopow
gen powtodb 0 Powtodb
gen wrap 0 Wrap
gen clip 2 Clip
gen div 1 Div
gen exp 0 Exp
gen sqrt 0 Sqrt
gen tgl 0 Tgl
gen tabread 1s Tabread
gen tabread4~ 1s Tabread4
gen tabread~ 1s TabreadS
gen tabosc4~ 1s Tabosc4
gen bp~ 2 Bp
gen vcf~ 1 Vcf
gen biquad~ 5 Biquad
gen tabplay~ 1s Tabplay
gen tabwrite~ 1s TabwriteS
gen nbx 0 Nbx
gen float 1 Float
gen symbol 1s Symbol
gen bng 0 Bng
gen abs 0 Abs
gen floatatom 1s Floatatom
gen symbolatom 1s Symbolatom
python3 pdlib.py samplerate~ 0 > ../lean/Verif/Lib/Samplerate.lean
python3 pdlib.py loadbang 0 | sed 's/lib_loadbang/lib_bang/' > ../lean/Verif/Lib/Loadbang.lean
python3 pdlib.py bang~ 0 in:__hv_bang~ > ../lean/Verif/Lib/BangS.lean
python3 pdlib.py midirealtimein 0 in:__hv_midirealtimein > ../lean/Verif/Lib/Midirealtimein.lean
python3 pdlib.py midiin 0 in:__hv_midiin | sed 's/lib_midiin/lib_midirealtimein/' > ../lean/Verif/Lib/Midiin.lean
fun() { python3 pdlib.py "$1" 0 | sed "s/lib_$1/lib_cos/" > ../lean/Verif/Lib/"$2".lean; }
fun sin Sin
fun cos Cos
fun tan Tan
fun atan Atan
fun log Log
python3 pdlib.py tabwrite 1s | sed 's/lib_tabwrite/lib_tabwrites/' > ../lean/Verif/Lib/Tabwrite.lean
