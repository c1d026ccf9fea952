import Verif.Power
import Mathlib.Algebra.Group.Basic
import Mathlib.Data.Nat.Bitwise

namespace Verif

variable {M : Type} [Monoid M]

theorem powTop_spec (v m : ℕ) (h : v < 2 ^ m) : powTop v m ≤ m ∧ v < 2 ^ powTop v m := by
  induction m with
  | zero => simp [powTop] at *; omega
  | succ m ih =>
    unfold powTop
    split
    · exact ⟨le_refl _, h⟩
    · rename_i hb
      have h' : v < 2 ^ m := by
        by_contra hc
        apply hb
        have hd : v / 2 ^ m = 1 := by
          have h1 : 1 ≤ v / 2 ^ m := (Nat.le_div_iff_mul_le (by positivity)).2 (by omega)
          have h2 : v / 2 ^ m < 2 := by
            rw [Nat.div_lt_iff_lt_mul (by positivity)]; rw [pow_succ] at h; omega
          omega
        rw [Nat.testBit_eq_decide_div_mod_eq]; simp [hd]
      exact ⟨by have := (ih h').1; omega, (ih h').2⟩

theorem powInner_spec (x : M) (v n : ℕ) : ∀ (j a b : ℕ),
    powInner v n j (x ^ a) (x ^ b)
      = (x ^ (a + b * (v / 2 ^ j % 2 ^ n)), x ^ (b * 2 ^ n)) := by
  induction n with
  | zero => intro j a b; simp [powInner, Nat.mod_one]
  | succ n ih =>
    intro j a b
    unfold powInner
    have hbb : x ^ b * x ^ b = x ^ (b + b) := (pow_add x b b).symm
    rw [hbb]
    have hd : v / 2 ^ j % 2 ^ (n + 1) = v / 2 ^ j % 2 + 2 * (v / 2 ^ (j + 1) % 2 ^ n) := by
      rw [pow_succ, Nat.mul_comm (2 ^ n) 2, Nat.mod_mul, Nat.div_div_eq_div_mul, pow_succ]
    rw [hd, Nat.testBit_eq_decide_div_mod_eq]
    rcases Nat.mod_two_eq_zero_or_one (v / 2 ^ j) with h | h
    · rw [h]
      simp only [Nat.zero_ne_one, decide_false, Bool.false_eq_true, if_false]
      rw [ih]; congr 2 <;> ring
    · rw [h]
      simp only [decide_true, if_true]
      rw [show x ^ a * x ^ b = x ^ (a + b) from (pow_add x a b).symm, ih]; congr 2 <;> ring

theorem powBlocks_spec (W : ℕ) (x : M) : ∀ (vs : List ℕ) (a b : ℕ), (∀ v ∈ vs, v < 2 ^ W) →
    powBlocks W vs (x ^ a) (x ^ b)
      = x ^ (a + b * vs.foldr (fun v acc => v + 2 ^ W * acc) 0)
  | [], a, b, _ => by simp [powBlocks]
  | [v], a, b, h => by
    have hv := powTop_spec v W (h v (by simp))
    simp only [powBlocks, powInner_spec, pow_zero, Nat.div_one]
    rw [Nat.mod_eq_of_lt hv.2]; simp
  | v :: w :: vs, a, b, h => by
    have hv := h v (by simp)
    rw [powBlocks, powInner_spec, powBlocks_spec W x (w :: vs) _ _ (fun u hu => h u (by simp [hu]))]
    rw [pow_zero, Nat.div_one, Nat.mod_eq_of_lt hv]
    simp only [List.foldr_cons]
    congr 1; ring

theorem foldr_val (ys : List ℕ) : ys.foldr (fun v acc => v + 2 ^ 64 * acc) 0 = val ys := by
  induction ys with
  | nil => rfl
  | cons y ys ih => rw [List.foldr_cons, ih]; rfl

theorem power_eq (x : M) {y : List ℕ} (hy : Words y) : power x y = x ^ val y := by
  have := powBlocks_spec 64 x y 0 1 hy
  rw [pow_zero, pow_one, Nat.zero_add, Nat.one_mul, foldr_val] at this
  exact this

theorem powerInt_eq (x : M) {y : ℕ} (hy : y < 2 ^ 32) : powerInt x y = x ^ y := by
  have := powBlocks_spec 32 x [y] 0 1 (by simpa using hy)
  rw [pow_zero, pow_one, Nat.zero_add, Nat.one_mul] at this
  rw [powerInt, this]; simp

theorem powerSize_eq (x : M) {y : ℕ} (hy : y < 2 ^ 64) : powerSize x y = x ^ y := by
  have := powBlocks_spec 64 x [y] 0 1 (by simpa using hy)
  rw [pow_zero, pow_one, Nat.zero_add, Nat.one_mul] at this
  rw [powerSize, this]; simp

end Verif
