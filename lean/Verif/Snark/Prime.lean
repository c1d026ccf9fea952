import Verif.Snark.Word
import Verif.Fp.Prime

/-! Primality of the SNARK characteristic and group order (Pocklington certificates). -/

namespace Verif.Snark

/-- The group order r = 36z^4+36z^3+18z^2+6z+1 for the SNARK parameter z, bn.h:217. -/
def r : ℕ := 21888242871839275222246405745257275088548364400416034343698204186575808495617

theorem prime_173171039 : Nat.Prime 173171039 := by
  refine pockCheck_prime (a := 2) (qs := [13327]) (by decide +kernel) ?_
  intro x hx
  simp only [List.mem_cons, List.not_mem_nil, or_false] at hx
  rcases hx with rfl
  · norm_num

theorem prime_1263766531 : Nat.Prime 1263766531 := by
  refine pockCheck_prime (a := 2) (qs := [3557, 911]) (by decide +kernel) ?_
  intro x hx
  simp only [List.mem_cons, List.not_mem_nil, or_false] at hx
  rcases hx with rfl | rfl
  · norm_num
  · norm_num

theorem prime_35385462869 : Nat.Prime 35385462869 := by
  refine pockCheck_prime (a := 2) (qs := [1263766531]) (by decide +kernel) ?_
  intro x hx
  simp only [List.mem_cons, List.not_mem_nil, or_false] at hx
  rcases hx with rfl
  · exact prime_1263766531

theorem prime_2480874801745591 : Nat.Prime 2480874801745591 := by
  refine pockCheck_prime (a := 2) (qs := [35385462869]) (by decide +kernel) ?_
  intro x hx
  simp only [List.mem_cons, List.not_mem_nil, or_false] at hx
  rcases hx with rfl
  · exact prime_35385462869

theorem prime_13427688667394608761327070753331941386769 : Nat.Prime 13427688667394608761327070753331941386769 := by
  refine pockCheck_prime (a := 2) (qs := [2480874801745591, 173171039]) (by decide +kernel) ?_
  intro x hx
  simp only [List.mem_cons, List.not_mem_nil, or_false] at hx
  rcases hx with rfl | rfl
  · exact prime_2480874801745591
  · exact prime_173171039

theorem p_prime : Nat.Prime p := by
  refine pockCheck_prime (a := 2) (qs := [13427688667394608761327070753331941386769]) (by decide +kernel) ?_
  intro x hx
  simp only [List.mem_cons, List.not_mem_nil, or_false] at hx
  rcases hx with rfl
  · exact prime_13427688667394608761327070753331941386769

theorem prime_639533339 : Nat.Prime 639533339 := by
  refine pockCheck_prime (a := 2) (qs := [1637, 853]) (by decide +kernel) ?_
  intro x hx
  simp only [List.mem_cons, List.not_mem_nil, or_false] at hx
  rcases hx with rfl | rfl
  · norm_num
  · norm_num

theorem prime_65865678001877903 : Nat.Prime 65865678001877903 := by
  refine pockCheck_prime (a := 2) (qs := [639533339]) (by decide +kernel) ?_
  intro x hx
  simp only [List.mem_cons, List.not_mem_nil, or_false] at hx
  rcases hx with rfl
  · exact prime_639533339

theorem prime_13818364434197438864469338081 : Nat.Prime 13818364434197438864469338081 := by
  refine pockCheck_prime (a := 2) (qs := [65865678001877903]) (by decide +kernel) ?_
  intro x hx
  simp only [List.mem_cons, List.not_mem_nil, or_false] at hx
  rcases hx with rfl
  · exact prime_65865678001877903

theorem prime_12048837557 : Nat.Prime 12048837557 := by
  refine pockCheck_prime (a := 2) (qs := [93001, 661]) (by decide +kernel) ?_
  intro x hx
  simp only [List.mem_cons, List.not_mem_nil, or_false] at hx
  rcases hx with rfl | rfl
  · norm_num
  · norm_num

theorem prime_5156902474397 : Nat.Prime 5156902474397 := by
  refine pockCheck_prime (a := 2) (qs := [12048837557]) (by decide +kernel) ?_
  intro x hx
  simp only [List.mem_cons, List.not_mem_nil, or_false] at hx
  rcases hx with rfl
  · exact prime_12048837557

theorem prime_1670836401704629 : Nat.Prime 1670836401704629 := by
  refine pockCheck_prime (a := 2) (qs := [5156902474397]) (by decide +kernel) ?_
  intro x hx
  simp only [List.mem_cons, List.not_mem_nil, or_false] at hx
  rcases hx with rfl
  · exact prime_5156902474397

theorem r_prime : Nat.Prime r := by
  refine pockCheck_prime (a := 2) (qs := [13818364434197438864469338081, 1670836401704629]) (by decide +kernel) ?_
  intro x hx
  simp only [List.mem_cons, List.not_mem_nil, or_false] at hx
  rcases hx with rfl | rfl
  · exact prime_13818364434197438864469338081
  · exact prime_1670836401704629

instance : Fact p.Prime := ⟨p_prime⟩

/-- p and r come from z by the polynomials of bn.h:215-217. -/
theorem p_poly : p = 36 * z ^ 4 + 36 * z ^ 3 + 24 * z ^ 2 + 6 * z + 1 := by decide +kernel

theorem r_poly : r = 36 * z ^ 4 + 36 * z ^ 3 + 18 * z ^ 2 + 6 * z + 1 := by decide +kernel

end Verif.Snark
