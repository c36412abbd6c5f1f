import Verif.LightPipe
import Verif.LightPipeProofs
import Verif.Props.LightPipe
import Verif.MessageQueue
import Verif.MessageQueueProofs
import Verif.Props.MessageQueue
import Verif.Scheduler
import Verif.SchedulerProofs
import Verif.Props.Scheduler
import Verif.Hash
import Verif.Props.Hash
import Verif.Mem
import Verif.Message
import Verif.MessageProofs
import Verif.Props.Message
import Verif.MessagePool
import Verif.MessagePoolProofs
import Verif.Props.MessagePool
import Verif.Flt
import Verif.Table
import Verif.TableProofs
import Verif.Props.Table
import Verif.Props.TableAccess
import Verif.Props.TableSignal
import Verif.Random
import Verif.Props.Random
import Verif.Props.Binop
import Verif.Props.Delay
import Verif.Props.Lists
import Verif.Props.Stored
import Verif.Simd
import Verif.Props.Simd
import Verif.Samphold
import Verif.Props.Samphold
import Verif.Line
import Verif.Props.Line
import Verif.Phasor
import Verif.Props.Phasor
import Verif.Interleave
import Verif.Props.Interleave
import Verif.Signal
import Verif.Props.SignalOrder
import Verif.Props.SignalBuffers
import Verif.Cascade
import Verif.Props.Cascade
import Verif.Fma
import Verif.Props.Fma
import Verif.Props.SignalPipeline
import Verif.Control
import Verif.Props.Control
import Verif.Props.ControlExample
import Verif.Props.ControlTotal
import Verif.PdReceive
import Verif.Props.PdReceive
import Verif.ExprSig
import Verif.Props.ExprSig
import Verif.ControlExpr
import Verif.Props.ControlExpr
import Verif.Dollar
import Verif.Props.Dollar
import Verif.Scope
import Verif.Props.Scope
import Verif.Switchcase
import Verif.Props.Switchcase
import Verif.PdText
import Verif.Props.PdText
import Verif.PdArray
import Verif.Props.PdArray
import Verif.PdLets
import Verif.Props.PdLets
import Verif.PdAbs
import Verif.Props.PdAbs
import Verif.MessageBox
import Verif.Props.MessageBox
import Verif.Midi
import Verif.Props.Midi
import Verif.Transport
import Verif.Props.Transport
import Verif.PdRemote
import Verif.Props.PdRemote
import Verif.SignalTree
import Verif.SignalActs
import Verif.SignalTreeProofs
import Verif.Props.SignalTree
import Verif.SignalTreePasses
import Verif.Props.SignalTreePasses
import Verif.Conv
import Verif.Props.Conv
import Verif.Env
import Verif.Props.Env
import Verif.Reduce
import Verif.ReduceGraph
import Verif.Props.Reduce
import Verif.Props.ReduceStep
import Verif.Props.ReduceCases
import Verif.Props.ReduceObj
import Verif.Props.ReduceAll
import Verif.Remap
import Verif.RemapGraph
import Verif.RemapShape
import Verif.VarExec
import Verif.Props.Remap
import Verif.Props.RemapStep
import Verif.Props.RemapReady
import Verif.Props.RemapAll
import Verif.Props.VarExec
import Verif.LightPipeTso
import Verif.LightPipeTsoProofs
import Verif.Props.LightPipeTso
import Verif.HvMath
import Verif.Props.HvMath
import Verif.Snapshot
import Verif.Props.Snapshot
import Verif.ExprParse
import Verif.Props.ExprParse
import Verif.DelayLine
import Verif.DelayLineProofs
import Verif.DelayReadProofs
import Verif.Props.DelayLine
import Verif.LibAttr
import Verif.Lib
import Verif.LibRun
import Verif.LibCompile
import Verif.LibSim
import Verif.Lib.Metro
import Verif.Lib.Delay
import Verif.Lib.Pipe
import Verif.Props.LibMetro
import Verif.LibTime
import Verif.Lib.Line
import Verif.Props.LibLine
import Verif.Props.Poly
import Verif.Props.LibDelay
import Verif.Lib.Makenote
import Verif.Lib.Timer
import Verif.Lib.Change
import Verif.Lib.Stripnote
import Verif.Lib.Swap
import Verif.Lib.Nbx
import Verif.Lib.Float
import Verif.Lib.Symbol
import Verif.Lib.Bng
import Verif.Lib.Abs
import Verif.Lib.Floatatom
import Verif.Lib.Symbolatom
import Verif.Lib.Spigot
import Verif.Lib.Moses
import Verif.Lib.Int
import Verif.Lib.Until
import Verif.Props.LibMakenote
import Verif.Props.LibSmall
import Verif.Props.LibUntil
import Verif.Props.LibBoxes
import Verif.Props.LibSystem
import Verif.Props.LibFun
import Verif.Props.LibMidi
import Verif.Props.LibMidiHost
import Verif.Params
import Verif.Props.Params
import Verif.PolyBound
import Verif.Sig
import Verif.Sig.Bp
import Verif.Sig.Clip
import Verif.Sig.Cos
import Verif.Sig.Cpole
import Verif.Sig.Czero
import Verif.Sig.CzeroRev
import Verif.Sig.Dbtopow
import Verif.Sig.Dbtorms
import Verif.Sig.Ftom
import Verif.Sig.Hip
import Verif.Sig.Lop
import Verif.Sig.Mtof
import Verif.Sig.Osc
import Verif.Sig.Powtodb
import Verif.Sig.Rmstodb
import Verif.Sig.Rpole
import Verif.Sig.Rzero
import Verif.Sig.RzeroRev
import Verif.Sig.Sqrt
import Verif.Sig.Vcf
import Verif.Sig.Wrap
import Verif.Props.SigTrig
import Verif.Props.SigFun
import Verif.Lib.Lop
import Verif.Lib.Hip
import Verif.Props.SigFilter
import Verif.Props.SigPole
import Verif.PhasorFreq
import Verif.Props.PhasorFreq
import Verif.Noise
import Verif.Props.Noise
import Verif.Sig.Tabread4
import Verif.Sig.Tabread
import Verif.Sig.Tabosc4
import Verif.Props.SigTab
import Verif.Lib.Tabread4
import Verif.Lib.TabreadS
import Verif.Lib.Tabosc4
import Verif.Props.SigTab4
import Verif.Lib.Mtof
import Verif.Lib.Ftom
import Verif.Lib.Dbtorms
import Verif.Lib.Rmstodb
import Verif.Lib.Dbtopow
import Verif.Lib.Powtodb
import Verif.Lib.Wrap
import Verif.Lib.Clip
import Verif.Lib.Div
import Verif.Lib.Exp
import Verif.Lib.Sqrt
import Verif.Lib.Tgl
import Verif.Lib.Tabread
import Verif.Lib.Bp
import Verif.Lib.Vcf
import Verif.Props.LibMath
import Verif.Props.LibTab
import Verif.BiquadCheck
import Verif.Props.BiquadCheck
import Verif.Props.SigBiquad
import Verif.Props.SigVcf
import Verif.Props.SigBiquadList
import Verif.CableTypes
import Verif.Props.CableTypes
import Verif.PdBinop
import Verif.Props.PdBinop
import Verif.Host
import Verif.HostMsg
import Verif.Print
import Verif.Props.Host
import Verif.Props.HostMsg
import Verif.Props.Print
import Verif.Props.LibTabplay
import Verif.Props.LibTabwriteS
import Verif.Whole
import Verif.Props.Whole
import Verif.Props.WholeExample
import Verif.Props.WholeEcho
import Verif.Prune
import Verif.Props.Prune
import Verif.PdFile
import Verif.Props.PdFile
import Verif.Handover
import Verif.Props.Handover
import Verif.PdLibSig
import Verif.Props.PdLibSig
import Verif.Trigger
import Verif.Props.Trigger
import Verif.PdTable
import Verif.Props.PdTable
import Verif.Channels
import Verif.Props.Channels
import Verif.PdNotices
import Verif.Props.PdNotices
import Verif.Stages
import Verif.Props.Stages
