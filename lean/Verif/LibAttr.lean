import Lean.Meta.Tactic.Simp.RegisterCommand
/-!
Names of the sets of rewriting rules used for running the library abstractions.
-/
/-- rules for one step of the semantics of `Verif.Lib` -/
register_simp_attr lib_step
/-- rules of `[metro]` -/
register_simp_attr lib_metro
/-- rules of `[delay]` -/
register_simp_attr lib_delay
/-- rules of `[pipe]` -/
register_simp_attr lib_pipe
/-- rules of `[makenote]` -/
register_simp_attr lib_makenote
/-- rules of `[timer]` -/
register_simp_attr lib_timer
/-- rules of `[poly]` -/
register_simp_attr lib_poly
/-- rules of `[change]` -/
register_simp_attr lib_change
/-- rules of `[stripnote]` -/
register_simp_attr lib_stripnote
/-- rules of `[until]` -/
register_simp_attr lib_until
/-- rules of `[line]` -/
register_simp_attr lib_line
/-- rules of `[swap]` -/
register_simp_attr lib_swap
/-- rules of `[spigot]` -/
register_simp_attr lib_spigot
/-- rules of `[moses]` -/
register_simp_attr lib_moses
/-- rules of `[int]` -/
register_simp_attr lib_int
/-- rules of `[notein]` -/
register_simp_attr lib_notein
/-- rules of `[ctlin]` -/
register_simp_attr lib_ctlin
/-- rules of `[bendin]` -/
register_simp_attr lib_bendin
/-- rules of `[touchin]` -/
register_simp_attr lib_touchin
/-- rules of `[polytouchin]` -/
register_simp_attr lib_polytouchin
/-- rules of `[pgmin]` -/
register_simp_attr lib_pgmin
/-- rules of `[noteout]` -/
register_simp_attr lib_noteout
/-- rules of `[ctlout]` -/
register_simp_attr lib_ctlout
/-- rules of `[bendout]` -/
register_simp_attr lib_bendout
/-- rules of `[touchout]` -/
register_simp_attr lib_touchout
/-- rules of `[polytouchout]` -/
register_simp_attr lib_polytouchout
/-- rules of `[pgmout]` -/
register_simp_attr lib_pgmout
/-- rules of `[lop]` -/
register_simp_attr lib_lop
/-- rules of `[hip]` -/
register_simp_attr lib_hip
/-- rules of `[bp]` -/
register_simp_attr lib_bp
/-- rules of `[vcf]` -/
register_simp_attr lib_vcf
/-- rules of `[tabread4]` -/
register_simp_attr lib_tabread4
/-- rules of `[tabread~]` -/
register_simp_attr lib_tabreads
/-- rules of `[tabosc4]` -/
register_simp_attr lib_tabosc4
/-- rules of `[tgl]` -/
register_simp_attr lib_tgl
/-- rules of `[clip]` -/
register_simp_attr lib_clip
/-- rules of `[wrap]` -/
register_simp_attr lib_wrap
/-- rules of `[random]` -/
register_simp_attr lib_random
/-- rules of `[div]` -/
register_simp_attr lib_div
/-- rules of `[nbx]` -/
register_simp_attr lib_nbx
/-- rules of `[hsl]` -/
register_simp_attr lib_hsl
/-- rules of `[bng]` -/
register_simp_attr lib_bng
/-- rules of `[mtof]` -/
register_simp_attr lib_mtof
/-- rules of `[ftom]` -/
register_simp_attr lib_ftom
/-- rules of `[dbtorms]` -/
register_simp_attr lib_dbtorms
/-- rules of `[rmstodb]` -/
register_simp_attr lib_rmstodb
/-- rules of `[dbtopow]` -/
register_simp_attr lib_dbtopow
/-- rules of `[powtodb]` -/
register_simp_attr lib_powtodb
/-- rules of `[exp]` -/
register_simp_attr lib_exp
/-- rules of `[sqrt]` -/
register_simp_attr lib_sqrt
/-- rules of `[tabread]` -/
register_simp_attr lib_tabread
/-- rules of `[tabwrite]` -/
register_simp_attr lib_tabwrite
/-- rules of `[symbol]` -/
register_simp_attr lib_symbol
/-- rules of `[midiin]` -/
register_simp_attr lib_midiin
/-- rules of `[midiout]` -/
register_simp_attr lib_midiout
/-- rules of `[vsl]` -/
register_simp_attr lib_vsl
/-- rules of `[radio]` -/
register_simp_attr lib_radio
/-- rules of `[floatatom]` -/
register_simp_attr lib_floatatom
/-- rules of `[line_tilde]` -/
register_simp_attr lib_line_tilde
/-- rules of `[vline]` -/
register_simp_attr lib_vline
/-- rules of `[tabplay]` -/
register_simp_attr lib_tabplay
/-- rules of `[samplerate]` -/
register_simp_attr lib_samplerate
/-- rules of `[env]` -/
register_simp_attr lib_env
/-- rules of `[abs]` -/
register_simp_attr lib_abs
/-- rules of `[unpack]` -/
register_simp_attr lib_unpack
/-- rules of `[pack]` -/
register_simp_attr lib_pack
/-- rules of `[cos]` -/
register_simp_attr lib_cos
/-- rules of `[biquad]` -/
register_simp_attr lib_biquad
/-- rules of `[tabwrite~]` -/
register_simp_attr lib_tabwrites
/-- rules of `[float]` -/
register_simp_attr lib_float
/-- rules of `[hradio]` -/
register_simp_attr lib_hradio
/-- rules of `[vradio]` -/
register_simp_attr lib_vradio
/-- rules of `[symbolatom]` -/
register_simp_attr lib_symbolatom
/-- rules of `[bang]` -/
register_simp_attr lib_bang
/-- rules of `[midirealtimein]` -/
register_simp_attr lib_midirealtimein
