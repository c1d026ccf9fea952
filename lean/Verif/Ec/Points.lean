import Verif.Ec.Const

/-! The documented base points (test/test_point.hpp:43-54). -/

namespace Verif

/-- the canonical `Fp` object of a number -/
def feOf (n : ℕ) : Fe := ⟨n * Fp.montR % Fp.p, Nat.mod_lt _ Fp.p_pos⟩

/-- `g1 = (-1, 1)`, test/test_point.hpp:51-53 -/
def g1 : J Fe := ⟨-1, 1, 1⟩

/-- `g2`, test/test_point.hpp:45-50 -/
def g2 : J F2 :=
  ⟨⟨feOf 12723517038133731887338407189719511622662176727675373276651903807414909099441,
    feOf 4168783608814932154536427934509895782246573715297911553964171371032945126671⟩,
   ⟨feOf 13891744915211034074451795021214165905772212241412891944830863846330766296736,
    feOf 7937318970632701341203597196594272556916396164729705624521405069090520231616⟩, 1⟩

theorem g1_valid : Ec.isValid1 g1 = true := by decide +kernel
theorem g2_valid : Ec.isValid2 g2 = true := by decide +kernel

end Verif
