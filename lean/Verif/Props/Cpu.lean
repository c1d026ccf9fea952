import Verif.Jit.Cpu
import Verif.Jit.Progs
import Verif.Props.JitInit

/-! Property theorems C86: choice of the code variants by `detectCpu`. -/

namespace Verif.Jit
open Fp Init

theorem no_bmi2 (il : Bool) (a b c : ℕ) (s : Sub) : (code ⟨il, false, a, b, c⟩ s).all (fun i => !i.bmi2) = true := by
  cases il <;> cases s <;> krfl
theorem no_bmi2_snark (il : Bool) (a b c : ℕ) (x y : Addr) :
    (Snk.in_Fp2_mul_xi ⟨il, false, a, b, c⟩ x y).all (fun i => !i.bmi2) = true ∧
    (Snk.in_Fp2_mul_conj ⟨il, false, a, b, c⟩ x y).all (fun i => !i.bmi2) = true ∧
    (Snk.p_Fp2Dbl_mul_xi ⟨il, false, a, b, c⟩).all (fun i => !i.bmi2) = true := by
  cases il <;> refine ⟨?_, ?_, ?_⟩ <;> krfl

/-- **C86** `setModulo` never generates an instruction that the processor lacks: if a routine of the code generated after
`detectCpu(mode, useMulx)` contains `mulx`, the processor has BMI2 and the caller has allowed it.  For every processor, mode and
place of the tables, every routine of the default build, and the instructions for the multiplication by ξ
and by its conjugate that replace those of the default build in the SNARK build, at all addresses. -/
theorem C86_mulx (c : Cpu) (mode : ℤ) (useMulx : Bool) (D : ℕ) :
    let g := dataCfg (detectCpu c mode useMulx).1 (detectCpu c mode useMulx).2 D
    (∀ s, ∀ i ∈ code g s, i.bmi2 = true → c.bmi2 = true ∧ useMulx = true) ∧
    (∀ x y, ∀ i ∈ Snk.in_Fp2_mul_xi g x y, i.bmi2 = true → c.bmi2 = true ∧ useMulx = true) ∧
    (∀ x y, ∀ i ∈ Snk.in_Fp2_mul_conj g x y, i.bmi2 = true → c.bmi2 = true ∧ useMulx = true) ∧
    (∀ i ∈ Snk.p_Fp2Dbl_mul_xi g, i.bmi2 = true → c.bmi2 = true ∧ useMulx = true) := by
  intro g
  by_cases h : c.bmi2 = true ∧ useMulx = true
  · exact ⟨fun _ _ _ _ => h, fun _ _ _ _ _ => h, fun _ _ _ _ _ => h, fun _ _ _ => h⟩
  have e : (detectCpu c mode useMulx).2 = false := by
    unfold detectCpu
    cases hb : c.bmi2
    · rfl
    · cases hu : useMulx
      · rfl
      · exact absurd ⟨hb, hu⟩ h
  have hg : g = ⟨(detectCpu c mode useMulx).1, false, D, D + 40, D + 64⟩ := by
    show dataCfg _ _ D = _
    rw [e]; rfl
  rw [hg]
  have h0 := fun s => List.all_eq_true.1 (no_bmi2 (detectCpu c mode useMulx).1 D (D + 40) (D + 64) s)
  have hs := fun x y => no_bmi2_snark (detectCpu c mode useMulx).1 D (D + 40) (D + 64) x y
  refine ⟨fun s i hi hb => ?_, fun x y i hi hb => ?_, fun x y i hi hb => ?_, fun i hi hb => ?_⟩
  · have := h0 s i hi; rw [hb] at this; cases this
  · have := List.all_eq_true.1 (hs x y).1 i hi; rw [hb] at this; cases this
  · have := List.all_eq_true.1 (hs x y).2.1 i hi; rw [hb] at this; cases this
  · have := List.all_eq_true.1 (hs (pt .rax) (pt .rax)).2.2 i hi; rw [hb] at this; cases this

/-- **C86** the test is needed: with the switch on, the product routine does contain `mulx`, in both load variants. -/
theorem C86_needed (il : Bool) (D : ℕ) : ∃ i ∈ code (dataCfg il true D) .pFpMul, i.bmi2 = true := by
  have h : (code (dataCfg il true D) .pFpMul).any (fun i => i.bmi2) = true := by
    cases il <;> krfl
  exact List.any_eq_true.1 h

theorem mask_and (d n : ℕ) : d &&& mask n = d % 2 ^ n := by
  unfold mask
  rw [Nat.one_shiftLeft, Nat.and_two_pow_sub_one_eq_mod]

/-- **C86** the fields of `CpuExt` are the bit fields of the cpuid word, for every word. -/
theorem C86_ext (d : ℕ) : (cpuExt d).stepping = d % 16 ∧ (cpuExt d).model = d / 2 ^ 4 % 16 ∧ (cpuExt d).family = d / 2 ^ 8 % 16 ∧
    (cpuExt d).type = d / 2 ^ 12 % 4 ∧ (cpuExt d).extModel = d / 2 ^ 16 % 16 ∧ (cpuExt d).extFamily = d / 2 ^ 20 % 256 ∧
    (cpuExt d).displayFamily = d / 2 ^ 8 % 16 + (if d / 2 ^ 8 % 16 = 15 then d / 2 ^ 20 % 256 else 0) ∧
    (cpuExt d).displayModel = (if d / 2 ^ 8 % 16 = 6 ∨ d / 2 ^ 8 % 16 = 15 then 16 * (d / 2 ^ 16 % 16) else 0) + d / 2 ^ 4 % 16 := by
  unfold cpuExt
  simp only [mask_and, Nat.shiftRight_eq_div_pow, Nat.shiftLeft_eq]
  refine ⟨rfl, rfl, rfl, rfl, rfl, rfl, ?_, ?_⟩ <;> norm_num only <;> split <;> omega

/-- **C86** `interleaveLoad`: modes 0 and 1 force it; otherwise it is on exactly for Intel processors other than family 6, model
10, extended model 2. -/
theorem C86_interleave (c : Cpu) (mode : ℤ) (useMulx : Bool) :
    (detectCpu c mode useMulx).1 = true ↔ mode = 1 ∨ mode ≠ 0 ∧ c.intel = true ∧
      ¬ (c.eax / 2 ^ 8 % 16 = 6 ∧ c.eax / 2 ^ 4 % 16 = 10 ∧ c.eax / 2 ^ 16 % 16 = 2) := by
  obtain ⟨-, -, hf, -, -, -, -, hd⟩ := C86_ext c.eax
  unfold detectCpu
  by_cases h0 : mode = 0
  · simp [h0]
  by_cases h1 : mode = 1
  · simp [h1]
  simp only [h0, h1, if_false, false_or, ne_eq, not_false_eq_true, true_and, hf, hd]
  cases c.intel
  · simp
  by_cases h6 : c.eax / 2 ^ 8 % 16 = 6
  · rw [if_pos (Or.inl h6), h6]
    simp
    omega
  · have e6 : ¬ c.eax / 256 % 16 = 6 := h6
    simp [e6]

/-- **C86** the switches change the instructions, not the tables: after `setModulo` the tables that C57-C64 need are in place whatever
`detectCpu` has chosen, so these theorems hold on every processor. -/
theorem C86_tables {c : Consts} (hc : setModulo none pV = .ok c) {m : ℕ → ℕ} {D : ℕ}
    (hm : ∀ i, i < 96 → m (D + i) = (dataWords c).getD i 0) (cpu : Cpu) (mode : ℤ) (useMulx : Bool) :
    Tables (dataCfg (detectCpu cpu mode useMulx).1 (detectCpu cpu mode useMulx).2 D) m := C57_tables hc hm _ _

/-- Sandy Bridge (zm2.cpp:262-275), and the Opteron and Core i7 860 of the same comment, in automatic mode; mulx wanted but absent -/
example : detectCpu ⟨true, false, 0x206a7⟩ (-1) true = (false, false) ∧ detectCpu ⟨false, false, 0x100f42⟩ (-1) true = (false, false) ∧
    detectCpu ⟨true, false, 0x106e5⟩ (-1) true = (true, false) ∧ detectCpu ⟨true, true, 0x306c3⟩ (-1) true = (true, true) ∧
    (cpuExt 0x100f42).displayFamily = 16 ∧ (cpuExt 0x206a7).displayModel = 0x2a := by decide

end Verif.Jit
