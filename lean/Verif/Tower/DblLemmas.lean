import Verif.Fp.Field
import Verif.Tower.Raw

/-! `Dbl` operations in the form used by the tower: reduced double values (`< pN`) and residues. -/

namespace Verif.Fp

/-- p * 2^256 -/
def pN : ℕ := p * W256
/-- p * 2^254, the amount added by `subOpt1` -/
def qN : ℕ := p * (W256 / 4)
/-- 2^512 -/
def w512 : ℕ := W512
/-- 2^256 -/
def w256 : ℕ := W256

theorem pN_def : pN = p * W256 := rfl
theorem pN_qN : pN = 4 * qN := by unfold pN qN; rw [p_eq]
theorem pN_w : 4 * pN < w512 := pN_lt
theorem p_w : 4 * p < w256 := p_lt_W
theorem qN_pos : 0 < qN := by unfold qN; rw [p_eq]; norm_num
theorem w_w : w256 * w256 = w512 := by unfold w256 w512; norm_num
theorem pN_eq : pN = p * w256 := rfl

/-- product of canonical values -/
theorem prod_lt {x y : ℕ} (hx : x < p) (hy : y < p) : x * y < qN := by
  have h1 : x * y ≤ p * y := Nat.mul_le_mul_right _ hx.le
  have h2 : p * y < p * (W256 / 4) := by
    apply Nat.mul_lt_mul_of_pos_left _ p_pos
    have := p_lt_W
    omega
  unfold qN
  omega

/-- product of values below 2p -/
theorem prod_lt2 {x y : ℕ} (hx : x < 2 * p) (hy : y < 2 * p) : x * y < pN := by
  have h1 : x * y ≤ 2 * p * y := Nat.mul_le_mul_right _ hx.le
  have h2 : p * (2 * y) < p * w256 := by
    apply Nat.mul_lt_mul_of_pos_left _ p_pos
    have := p_w
    omega
  rw [pN_eq]
  have : 2 * p * y = p * (2 * y) := by ring
  omega

/-- product of values below 4p -/
theorem prod_lt4 {x y : ℕ} (hx : x < 4 * p) (hy : y < 4 * p) : x * y < w512 := by
  have h := p_w
  rw [← w_w]
  exact Nat.mul_lt_mul'' (by omega) (by omega)

theorem dmul {x y : ℕ} (hx : x < 4 * p) (hy : y < 4 * p) : dblMul x y = x * y :=
  dblMul_val (by have := p_lt_W; omega) (by have := p_lt_W; omega)

theorem anc {x y : ℕ} (h : x + y < 4 * p) : addNC x y = x + y :=
  addNC_val (by have := p_lt_W; omega)

theorem dsubNC {x y : ℕ} (hx : x < w512) (h : y ≤ x) : dblSubNC x y = x - y := dblSubNC_val hx h
theorem daddNC {x y : ℕ} (h : x + y < w512) : dblAddNC x y = x + y := dblAddNC_val h

theorem cast_pN : (pN : ZMod p) = 0 := by unfold pN; push_cast; rw [cast_p]; ring
theorem cast_qN : (qN : ZMod p) = 0 := by
  unfold qN; rw [Nat.cast_mul, cast_p]; ring

theorem residueD_add (x y : ℕ) : residueD (x + y) = residueD x + residueD y := by
  unfold residueD; push_cast; rw [add_div]

theorem residueD_sub {x y : ℕ} (h : y ≤ x) : residueD (x - y) = residueD x - residueD y := by
  unfold residueD; rw [Nat.cast_sub h, sub_div]

theorem residueD_pN (x : ℕ) : residueD (x + pN) = residueD x := by
  unfold residueD; push_cast; rw [cast_pN, add_zero]

theorem residueD_qN (x : ℕ) : residueD (x + qN) = residueD x := by
  unfold residueD; push_cast; rw [cast_qN, add_zero]

theorem residueD_mul (x y : ℕ) : residueD (x * y) = residue x * residue y := by
  unfold residueD residue
  rw [show (2 : ZMod p) ^ 512 = 2 ^ 256 * 2 ^ 256 by rw [← pow_add]]
  push_cast; rw [mul_div_mul_comm]

theorem residue_plus (x y : ℕ) : residue (x + y) = residue x + residue y := by
  unfold residue; push_cast; rw [add_div]

theorem residue_minus {x y : ℕ} (h : y ≤ x) : residue (x - y) = residue x - residue y := by
  unfold residue; rw [Nat.cast_sub h, sub_div]

theorem residue_p (x : ℕ) : residue (x + p) = residue x := by
  unfold residue; push_cast; rw [cast_p, add_zero]

theorem dadd {x y : ℕ} (hx : x < pN) (hy : y < pN) :
    dblAdd x y < pN ∧ residueD (dblAdd x y) = residueD x + residueD y := by
  have h4 := pN_w
  have hv : dblAdd x y = if x + y < pN then x + y else x + y - pN :=
    dblAdd_val (show x + y < w512 by omega)
  rw [hv]
  split
  · exact ⟨by assumption, residueD_add x y⟩
  · refine ⟨by omega, ?_⟩
    rw [← residueD_pN, Nat.sub_add_cancel (by omega), residueD_add]

theorem dsub {x y : ℕ} (hx : x < pN) (hy : y ≤ pN) :
    dblSub x y < pN ∧ residueD (dblSub x y) = residueD x - residueD y := by
  have h4 := pN_w
  have hv : dblSub x y = if y ≤ x then x - y else x + pN - y :=
    dblSub_val (show x < w512 by omega) (show y < w512 by omega) (show y ≤ x + pN by omega)
  rw [hv]
  split
  · exact ⟨by omega, residueD_sub (by assumption)⟩
  · refine ⟨by omega, ?_⟩
    rw [residueD_sub (by omega), residueD_pN]

theorem dsubOpt1 {x y : ℕ} (hx : x < pN) (hy : y ≤ x + qN) :
    dblSubOpt1 x y = x + qN - y ∧ residueD (dblSubOpt1 x y) = residueD x - residueD y := by
  have h4 := pN_w
  have h5 := pN_qN
  have hv : dblSubOpt1 x y = x + qN - y :=
    dblSubOpt1_val (show x < w512 by omega) (show y < w512 by omega) hy
      (show x + qN - y < w512 by omega)
  refine ⟨hv, ?_⟩
  rw [hv, residueD_sub hy, residueD_qN]

theorem dmod {x : ℕ} (h : x < pN) : dblMod x < p ∧ residue (dblMod x) = residueD x :=
  ⟨(dblMod_spec h).1, residue_dblMod h⟩


/-- the exact second component of a schoolbook/Karatsuba product -/
theorem karat {a b c d : ℕ} (ha : a < 2 * p) (hb : b < 2 * p) (hc : c < 2 * p) (hd : d < 2 * p) :
    dblSubNC (dblSubNC (dblMul (addNC a b) (addNC c d)) (dblMul a c)) (dblMul b d) = a * d + b * c := by
  rw [anc (by omega), anc (by omega), dmul (by omega) (by omega), dmul (by omega) (by omega),
    dmul (by omega) (by omega)]
  have e : (a + b) * (c + d) = a * d + b * c + b * d + a * c := by ring
  have h1 := prod_lt4 (x := a + b) (y := c + d) (by omega) (by omega)
  rw [e] at h1 ⊢
  rw [dsubNC h1 (by omega), Nat.add_sub_cancel, dsubNC (by omega) (by omega), Nat.add_sub_cancel]

end Verif.Fp

attribute [irreducible] Verif.Fp.pN Verif.Fp.qN Verif.Fp.w256 Verif.Fp.w512
