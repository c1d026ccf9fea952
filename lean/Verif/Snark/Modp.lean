import Verif.Snark.Curve

/-! `fast_modp` with the SNARK modulus: exactly when the quotient estimate by the top three bits is close enough. -/

namespace Verif.Snark

open scoped Verif.Fp
open Verif.Fp (W4 add4 add4_val add4_ok sub4 sub4_cases maskW maskW_val)

theorem fast_aux {t n q k e : ℕ} (hn : n < W256) (ht : t = n / 2 ^ 253) (hq : q = t * p % W256)
    (hm : k = 0 ∧ q ≤ n ∧ e + q = n ∨ k = p ∧ n < q ∧ e + q = n + W256) :
    (t * p ≤ n + p → (e + k) % W256 = n % p) ∧
    (n + p < t * p → (e + k) % W256 + t * p = n + W256 + p ∨ (e + k) % W256 + t * p = n + W256) := by
  have hp := p_eq
  generalize hP : p = P at *
  generalize hW : W256 = W at *
  norm_num only at ht
  have h7 : t < 8 := by omega
  subst hp
  rcases (show t = 0 ∨ t = 1 ∨ t = 2 ∨ t = 3 ∨ t = 4 ∨ t = 5 ∨ t = 6 ∨ t = 7 by omega) with
    h | h | h | h | h | h | h | h
  all_goals
    rw [h] at hq ht ⊢
    subst hW
    norm_num only at hq ⊢
    refine ⟨fun h => ?_, fun h => ?_⟩ <;> rcases hm with ⟨h0, h1, h2⟩ | ⟨h0, h1, h2⟩ <;> rw [h0] <;> omega

theorem fast_aux' {t n q c e : ℕ} (hn : n < W256) (ht : t = n / 2 ^ 253) (hq : q = t * p % W256)
    (hc : c = 0 ∧ q ≤ n ∧ e = n - q ∨ c = 1 ∧ n < q ∧ e = n + W256 - q) :
    (t * p ≤ n + p → (e + if c = 1 then p else 0) % W256 = n % p) ∧
    (n + p < t * p → (e + if c = 1 then p else 0) % W256 + t * p = n + W256 + p ∨
      (e + if c = 1 then p else 0) % W256 + t * p = n + W256) := by
  refine fast_aux hn ht hq ?_
  have hW : q < W256 := by rw [hq]; exact Nat.mod_lt _ (by norm_num)
  generalize W256 = W at *
  rcases hc with ⟨c0, c1, c2⟩ | ⟨c0, c1, c2⟩
  · exact .inl ⟨by rw [c0, if_neg (by norm_num)], c1, by omega⟩
  · exact .inr ⟨by rw [c0, if_pos rfl], c1, by omega⟩

theorem top3 {x : W4} (hx : x.Ok) : x.w3 / 2 ^ 61 = x.val / 2 ^ 253 := by
  have hxv : x.val = x.w0 + B64 * (x.w1 + B64 * (x.w2 + B64 * x.w3)) := rfl
  obtain ⟨h0, h1, h2, h3⟩ := hx
  norm_num only
  omega

theorem wFastModp_val {x : W4} : (wFastModp x).val = ((sub4 x (pTbl (x.w3 / 2 ^ 61)) 0).1.val +
    if (sub4 x (pTbl (x.w3 / 2 ^ 61)) 0).2 = 1 then p else 0) % W256 := by
  unfold wFastModp; dsimp only
  rw [add4_val, maskW_val, pTbl1_val, Nat.add_zero]

theorem wFastModp_spec {x : W4} (hx : x.Ok) :
    (x.val / 2 ^ 253 * p ≤ x.val + p → (wFastModp x).val = x.val % p) ∧
    (x.val + p < x.val / 2 ^ 253 * p → (wFastModp x).val + x.val / 2 ^ 253 * p = x.val + W256 + p ∨
      (wFastModp x).val + x.val / 2 ^ 253 * p = x.val + W256) := by
  have ht2 : x.w3 / 2 ^ 61 = x.val / 2 ^ 253 := top3 hx
  rw [wFastModp_val, ← ht2]
  generalize x.w3 / 2 ^ 61 = t at *
  have hc := sub4_cases hx (pTbl_ok t) (c := 0) (by norm_num)
  rw [Nat.add_zero] at hc
  have hq : (pTbl t).val = t * p % W256 := by unfold pTbl; rw [W4.val_of]
  exact fast_aux' (W4.val_lt hx) ht2 hq hc

/-- the estimate of n by its top three bits is at most one too large -/
def Est (n : ℕ) : Prop := n / 2 ^ 253 * p ≤ n + p

instance (n : ℕ) : Decidable (Est n) := by unfold Est; infer_instance

theorem fastModp_spec {x : ℕ} (hx : x < W256) :
    (Est x → fastModp x = x % p) ∧ (¬ Est x → (fastModp x : ZMod p) ≠ x) := by
  have h := wFastModp_spec (W4.of_ok x)
  rw [W4.val_of_lt hx] at h
  unfold fastModp Est
  constructor
  · exact h.1
  · intro he h0
    apply W_ne
    rcases h.2 (Nat.lt_of_not_le he) with h | h
    · have := congrArg (Nat.cast (R := ZMod p)) h
      simp only [Nat.cast_add, Nat.cast_mul, cast_p, h0] at this
      linear_combination -this
    · have := congrArg (Nat.cast (R := ZMod p)) h
      simp only [Nat.cast_add, Nat.cast_mul, cast_p, h0] at this
      linear_combination -this

theorem fastModp_iff {x : ℕ} (hx : x < W256) :
    (Canon (fastModp x) ∧ residue (fastModp x) = residue x) ↔ Est x := by
  obtain ⟨h1, h2⟩ := fastModp_spec hx
  constructor
  · rintro ⟨-, h⟩
    by_contra he
    apply h2 he
    rw [cast_eq_residue, h, ← cast_eq_residue]
  · intro he
    rw [h1 he]
    exact ⟨Nat.mod_lt _ p_pos, S2.residue_mod x⟩

theorem add2z3x_eq {z x : ℕ} (hz : z < p) (hx : x < p) : add2z3x z x = fastModp (2 * z + 3 * x) := by
  have hp := p_eq
  have hz' := lt_W hz
  have hx' := lt_W hx
  unfold add2z3x fastModp w2zAdd3x
  dsimp only
  congr 2
  rw [← W4.of_val (add4_ok _ _ _), add4_val, add4_val, add4_val, W4.val_of_lt hz', W4.val_of_lt hx']
  congr 1
  omega

theorem add2z3x_iff {z x : ℕ} (hz : z < p) (hx : x < p) :
    (Canon (add2z3x z x) ∧ residue (add2z3x z x) = 2 * residue z + 3 * residue x) ↔ Est (2 * z + 3 * x) := by
  have hp := p_eq
  rw [add2z3x_eq hz hx, ← fastModp_iff (by omega)]
  have : residue (2 * z + 3 * x) = 2 * residue z + 3 * residue x := by
    unfold residue; push_cast; ring
  rw [this]

end Verif.Snark
