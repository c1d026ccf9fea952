import Verif.Jit.Code
import Verif.Snark.JitDbl

/-!
The choice of the code variants: `CpuExt` and `detectCpu`, zm2.cpp:225-312.

The processor is given by what the code asks it: vendor and BMI2 support (Xbyak's `Cpu`, not modelled) and the word eax of
cpuid leaf 1.
-/

namespace Verif.Jit

/-- answers of the processor -/
structure Cpu where
  /-- `cpu.has(Cpu::tINTEL)` -/
  intel : Bool
  /-- `cpu.has(Cpu::tBMI2)`: `mulx` may be executed -/
  bmi2 : Bool
  /-- eax of cpuid leaf 1 -/
  eax : ℕ

/-- `CpuExt::mask`, zm2.cpp:255-258 -/
def mask (n : ℕ) : ℕ := (1 <<< n) - 1

structure CpuExt where
  type : ℕ
  model : ℕ
  family : ℕ
  stepping : ℕ
  extModel : ℕ
  extFamily : ℕ
  displayFamily : ℕ
  displayModel : ℕ

/-- `CpuExt::CpuExt()`, zm2.cpp:234-254 -/
def cpuExt (d : ℕ) : CpuExt :=
  let stepping := d &&& mask 4
  let model := (d >>> 4) &&& mask 4
  let family := (d >>> 8) &&& mask 4
  let type := (d >>> 12) &&& mask 2
  let extModel := (d >>> 16) &&& mask 4
  let extFamily := (d >>> 20) &&& mask 8
  let displayFamily := if family = 0x0f then family + extFamily else family
  let displayModel := if family = 6 ∨ family = 0x0f then (extModel <<< 4) + model else model
  ⟨type, model, family, stepping, extModel, extFamily, displayFamily, displayModel⟩

/-- `detectCpu(mode, useMulx)`, zm2.cpp:279-312: the values of `interleaveLoad` and `g_useMulx` afterwards -/
def detectCpu (c : Cpu) (mode : ℤ) (useMulx : Bool) : Bool × Bool :=
  let ext := cpuExt c.eax
  let il :=
    if mode = 0 then false
    else if mode = 1 then true
    else if !c.intel || (ext.family == 6 && ext.displayModel == 0x2a) then false else true
  let mx := if c.bmi2 then useMulx else false
  (il, mx)

/-- an instruction that needs BMI2 -/
def Op.bmi2 : Op → Bool
  | .mulx _ _ _ => true
  | _ => false
def Ins.bmi2 {κ : Type} : Ins κ → Bool
  | .op o => o.bmi2
  | _ => false

end Verif.Jit
