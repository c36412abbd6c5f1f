import Verif.Simd
/-!
`hvcc/generators/ir2c/static/HvSignalSamphold.{h,c}`: sample and hold.

Triggers are bit patterns; for SSE and NEON a comparison object delivers all ones or all zeros per lane.
-/
namespace Verif.Samphold
open Verif.Simd

variable {α : Type}

/-- `_mm_movemask_ps`: the sign bits -/
def movemask (t : V 4 (BitVec 32)) : Nat :=
  (t 0).msb.toNat + 2 * (t 1).msb.toNat + 4 * (t 2).msb.toNat + 8 * (t 3).msb.toNat

/-- the `switch` of HvSignalSamphold.h:36-125: (new state, output) for a mask -/
def sseCase (s bIn0 : V 4 α) : Nat → V 4 α × V 4 α
  | 0x1 =>
    let bOut := shuffle bIn0 bIn0 0 0 0 0
    (bOut, bOut)
  | 0x2 =>
    let x := shuffle bIn0 bIn0 1 1 1 1
    (x, blend s x 0xE)
  | 0x3 =>
    let x := shuffle bIn0 bIn0 1 1 1 1
    (x, blend bIn0 x 0xC)
  | 0x4 =>
    let x := shuffle bIn0 bIn0 2 2 2 2
    (x, blend s x 0xC)
  | 0x5 => (shuffle bIn0 bIn0 2 2 2 2, shuffle bIn0 bIn0 2 2 0 0)
  | 0x6 =>
    let x := shuffle bIn0 bIn0 2 2 1 0
    (shuffle bIn0 bIn0 2 2 2 2, blend s x 0xE)
  | 0x7 =>
    let x := shuffle bIn0 bIn0 2 2 2 2
    (x, blend bIn0 x 0x8)
  | 0x8 =>
    let x := shuffle bIn0 bIn0 3 3 3 3
    (x, blend s x 0x8)
  | 0x9 => (shuffle bIn0 bIn0 3 3 3 3, shuffle bIn0 bIn0 3 0 0 0)
  | 0xA =>
    let x := shuffle bIn0 bIn0 3 1 1 0
    (shuffle bIn0 bIn0 3 3 3 3, blend s x 0xE)
  | 0xB => (shuffle bIn0 bIn0 3 3 3 3, shuffle bIn0 bIn0 3 1 1 0)
  | 0xC => (shuffle bIn0 bIn0 3 3 3 3, blend s bIn0 0xC)
  | 0xD => (shuffle bIn0 bIn0 3 3 3 3, shuffle bIn0 bIn0 3 2 0 0)
  | 0xE => (shuffle bIn0 bIn0 3 3 3 3, blend s bIn0 0xE)
  | 0xF => (shuffle bIn0 bIn0 3 3 3 3, bIn0)
  | _ => (s, s)

/-- `__hv_samphold_f`, HV_SIMD_SSE, HvSignalSamphold.h:35-126: state `s`, inputs, result (new state, output) -/
def sse (s bIn0 : V 4 α) (bIn1 : V 4 (BitVec 32)) : V 4 α × V 4 α := sseCase s bIn0 (movemask bIn1)

/-! ### NEON: samples are bit patterns -/

/-- a vector of 32-bit words -/
abbrev W := V 4 (BitVec 32)

/-- `vandq_u32` -/
def vand (a b : W) : W := fun i => a i &&& b i
/-- `vorrq_u32` -/
def vorr (a b : W) : W := fun i => a i ||| b i
/-- `vdupq_n_f32(vgetq_lane_f32(v, i))` -/
def vdup (v : W) (i : Fin 4) : W := fun _ => v i
/-- 0xFFFFFFFF -/
def F : BitVec 32 := 0xFFFFFFFF#32

/-- `movemask`, HvSignalSamphold.h:128-134 -/
def neonMask (bIn1 : W) : Nat :=
  let mmA := vand bIn1 ![0x1, 0x2, 0x4, 0x8]
  let mmB := vext mmA mmA 2
  let mmC := vorr mmA mmB
  let mmD := vext mmC mmC 3
  let mmE := vorr mmC mmD
  (mmE 0).toNat

/-- the body of one `case` label, HvSignalSamphold.h:136-240: (new state, output), and whether it ends with `break`.
`bOut` is the output computed so far (by the label above, when its body had no `break`). -/
def neonCase (s bIn0 : W) : Nat → (W × W) × Bool
  | 0x1 => let bOut := vdup bIn0 0; ((bOut, bOut), true)
  | 0x2 => let x := vdup bIn0 1; ((x, vext s x 3), true)
  | 0x3 =>
    let x := vdup bIn0 1
    ((x, vorr (vand bIn0 ![F, 0, 0, 0]) (vand x ![0, F, F, F])), true)
  | 0x4 => let x := vdup bIn0 2; ((x, vext s x 2), true)
  | 0x5 =>
    let x := vdup bIn0 0
    let y := vdup bIn0 2
    ((y, vorr (vand x ![F, F, 0, 0]) (vand y ![0, 0, F, F])), false)
  | 0x6 =>
    let y := vdup bIn0 3
    let z := vorr (vand s ![F, 0, 0, 0]) (vand bIn0 ![0, F, F, 0])
    ((y, vorr (vand z ![F, F, F, 0]) (vand y ![0, 0, 0, F])), false)
  | 0x7 =>
    let x := vdup bIn0 2
    ((x, vorr (vand bIn0 ![F, F, 0, 0]) (vand x ![0, 0, F, F])), true)
  | 0x8 => let x := vdup bIn0 3; ((x, vext s x 1), true)
  | 0x9 =>
    let x := vdup bIn0 0
    ((vdup bIn0 3, vorr (vand x ![F, F, F, 0]) (vand bIn0 ![0, 0, 0, F])), false)
  | 0xA =>
    let x := vdup bIn0 1
    let y := vdup bIn0 3
    let z := vorr (vand s ![F, 0, 0, 0]) (vand x ![0, F, F, 0])
    ((y, vorr (vand z ![F, F, F, 0]) (vand y ![0, 0, 0, F])), false)
  | 0xB =>
    let x := vdup bIn0 1
    ((vdup bIn0 3, vorr (vand bIn0 ![F, F, 0, F]) (vand x ![0, 0, F, 0])), true)
  | 0xC => ((vdup bIn0 3, vorr (vand s ![F, F, 0, 0]) (vand bIn0 ![0, 0, F, F])), true)
  | 0xD =>
    let x := vdup bIn0 0
    ((vdup bIn0 3, vorr (vand bIn0 ![F, 0, F, F]) (vand x ![0, F, 0, 0])), false)
  | 0xE => ((vdup bIn0 3, vorr (vand s ![F, 0, 0, 0]) (vand bIn0 ![0, F, F, F])), true)
  | 0xF => ((vdup bIn0 3, bIn0), true)
  | _ => ((s, s), true)

/-- the C `switch`: execution falls through to the next label when a body has no `break`; `fuel` bounds the number of
labels passed (16 are enough) -/
def neonSwitch : Nat → W → W → Nat → W × W
  | 0, s, _, _ => (s, s)
  | fuel + 1, s, bIn0, label =>
    let r := neonCase s bIn0 label
    if r.2 then r.1 else neonSwitch fuel r.1.1 bIn0 (label + 1)

/-- `__hv_samphold_f`, HV_SIMD_NEON, HvSignalSamphold.h:127-240 -/
def neon (s bIn0 bIn1 : W) : W × W := neonSwitch 16 s bIn0 (neonMask bIn1)

/-- `__hv_samphold_f`, HV_SIMD_NONE, HvSignalSamphold.h:241-244; `bIn1 != 0.0f` for a bit pattern: neither +0 nor −0 -/
def none1 (s bIn0 : V 1 α) (bIn1 : V 1 (BitVec 32)) : V 1 α × V 1 α :=
  let s := if bIn1 0 ≠ 0#32 ∧ bIn1 0 ≠ 0x80000000#32 then bIn0 else s
  (s, s)

/-- `sSamphold_onMessage`, HvSignalSamphold.c:33-52: a float on inlet 2 replaces the held value; `none` when no float
arrived there before the block -/
def onMessage {N : Nat} (s : V N α) : Option α → V N α
  | some v => fun _ => v
  | none => s

/-- a block: messages first, then the samples -/
def blockStep {N : Nat} (f : V N α → V N α → V N (BitVec 32) → V N α × V N α) (s : V N α)
    (i : Option α × V N α × V N (BitVec 32)) : V N α × V N α :=
  f (onMessage s i.1) i.2.1 i.2.2

end Verif.Samphold
