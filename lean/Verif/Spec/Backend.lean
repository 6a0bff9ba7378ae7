import Verif.Model.Backend

/-!
# What choosing the backend should do
-/

namespace GT.Spec

/-- The clause block class a dense machine should use: that of the platform, with the options of the machine. -/
def wantedDense (p : Platform) (budget boost : Bool) : Cls :=
  match p.neon, p.avx2 with
  | true, _ => .neon budget boost
  | false, true => .avx2 budget boost
  | false, false => .portable budget boost

/-- How many sparse machines a program creates. -/
def sparseCreated : List ProcessOp → Nat
  | [] => 0
  | .create .sparse _ _ _ :: ops => sparseCreated ops + 1
  | _ :: ops => sparseCreated ops

/-- Every sparse machine of the program has a literal budget, dynamic active literals and no boosting. -/
def OnlyFallbackSparse (ops : List ProcessOp) : Prop :=
  ∀ op ∈ ops, match op with
    | .create .sparse l d b => l = true ∧ d = true ∧ b = false
    | _ => True

/-- The x86 manual: the processor has AVX2 when bit 5 of `ebx` of leaf 7 is set. -/
def cpuHasAvx2 (cpuid : Nat → CpuRegs) : Bool := (cpuid 7).ebx.testBit 5

/-- Leaf 0 of Intel processors: `ebx`, `edx`, `ecx` spell "GenuineIntel". -/
def genuineIntel (maxLeaf : Nat) : CpuRegs := ⟨maxLeaf, 0x756e6547, 0x6c65746e, 0x49656e69⟩

/-- Leaf 0 of AMD processors: "AuthenticAMD". -/
def authenticAMD (maxLeaf : Nat) : CpuRegs := ⟨maxLeaf, 0x68747541, 0x444d4163, 0x69746e65⟩

end GT.Spec
