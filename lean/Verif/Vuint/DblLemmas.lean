import Verif.Vuint.DivModel
import Mathlib.Data.Rat.Floor
import Mathlib.Tactic.FieldSimp
import Mathlib.Algebra.Order.Field.Power
import Mathlib.Data.Nat.Log

/-! Helper lemmas: rounding of doubles. -/

namespace Verif
namespace Dbl

/-- the rational value of a double -/
def rv (d : Dbl) : ℚ := d.m * (2 : ℚ) ^ d.e

def Normal (d : Dbl) : Prop := 2 ^ 52 ≤ d.m ∧ d.m < 2 ^ 53

theorem two_zpow_pos (e : ℤ) : (0 : ℚ) < 2 ^ e := zpow_pos (by norm_num) e

theorem zpow_toNat {e : ℤ} (h : 0 ≤ e) : (2 : ℚ) ^ e = 2 ^ e.toNat := by
  conv_lhs => rw [← Int.toNat_of_nonneg h]
  rw [zpow_natCast]

theorem scale_spec (a b : ℕ) (e : ℤ) (hb : 0 < b) :
    0 < (scale a b e).2 ∧ ((scale a b e).1 : ℚ) / (scale a b e).2 = (a : ℚ) / b / 2 ^ e := by
  have hb' : (b : ℚ) ≠ 0 := by positivity
  unfold scale
  split
  · rename_i h
    refine ⟨by positivity, ?_⟩
    push_cast
    rw [zpow_toNat h, div_div]
  · rename_i h
    refine ⟨hb, ?_⟩
    push_cast
    rw [← zpow_toNat (by omega), zpow_neg]
    field_simp

theorem log2_bounds {a : ℕ} (h : 0 < a) :
    (2 : ℚ) ^ (Nat.log2 a : ℤ) ≤ a ∧ (a : ℚ) < 2 ^ ((Nat.log2 a : ℤ) + 1) := by
  have h1 : 2 ^ Nat.log2 a ≤ a := Nat.log2_self_le (by omega)
  have h2 : a < 2 ^ (Nat.log2 a + 1) := Nat.lt_log2_self
  constructor
  · rw [zpow_natCast]; exact_mod_cast h1
  · have : ((Nat.log2 a : ℤ) + 1) = ((Nat.log2 a + 1 : ℕ) : ℤ) := by push_cast; rfl
    rw [this, zpow_natCast]; exact_mod_cast h2

theorem nat_div_le_rat (A B : ℕ) (hB : 0 < B) :
    ((A / B : ℕ) : ℚ) ≤ (A : ℚ) / B ∧ (A : ℚ) / B = ((A / B : ℕ) : ℚ) + ((A % B : ℕ) : ℚ) / B := by
  have hB' : (B : ℚ) ≠ 0 := by positivity
  have h : (A : ℚ) = B * ((A / B : ℕ) : ℚ) + ((A % B : ℕ) : ℚ) := by
    exact_mod_cast (Nat.div_add_mod A B).symm
  have e : (A : ℚ) / B = ((A / B : ℕ) : ℚ) + ((A % B : ℕ) : ℚ) / B := by
    conv_lhs => rw [h]
    field_simp
  refine ⟨?_, e⟩
  rw [e]
  have : (0 : ℚ) ≤ ((A % B : ℕ) : ℚ) / B := by positivity
  linarith

theorem rn_char (a b : ℕ) (ha : 0 < a) (hb : 0 < b) :
    ∃ (e : ℤ) (q : ℕ) (f : ℚ), (a : ℚ) / b = (q + f) * 2 ^ e ∧ 0 ≤ f ∧ f < 1 ∧
      2 ^ 52 ≤ q ∧ q < 2 ^ 53 ∧ Normal (rn a b) ∧
      (rn a b).rv = (if 1 / 2 < f ∨ (f = 1 / 2 ∧ q % 2 = 1) then (q : ℚ) + 1 else q) * 2 ^ e := by
  have hb' : (0 : ℚ) < b := by exact_mod_cast hb
  obtain ⟨la1, la2⟩ := log2_bounds ha
  obtain ⟨lb1, lb2⟩ := log2_bounds hb
  -- bounds on the scaled ratio
  have key : ∀ e₀ : ℤ, e₀ = (Nat.log2 a : ℤ) - Nat.log2 b - 52 →
      (2 : ℚ) ^ 51 < (a : ℚ) / b / 2 ^ e₀ ∧ (a : ℚ) / b / 2 ^ e₀ < 2 ^ 53 := by
    intro e₀ he
    have hp := two_zpow_pos e₀
    constructor
    · rw [lt_div_iff₀ hp, lt_div_iff₀ hb']
      calc (2 : ℚ) ^ 51 * 2 ^ e₀ * b < 2 ^ 51 * 2 ^ e₀ * 2 ^ ((Nat.log2 b : ℤ) + 1) := by
            apply mul_lt_mul_of_pos_left lb2; positivity
        _ = 2 ^ (Nat.log2 a : ℤ) := by
            have : (2 : ℚ) ^ 51 = 2 ^ (51 : ℤ) := by norm_cast
            rw [this, ← zpow_add₀ (by norm_num), ← zpow_add₀ (by norm_num)]
            congr 1; omega
        _ ≤ a := la1
    · rw [div_lt_iff₀ hp, div_lt_iff₀ hb']
      calc (a : ℚ) < 2 ^ ((Nat.log2 a : ℤ) + 1) := la2
        _ = 2 ^ 53 * 2 ^ e₀ * 2 ^ (Nat.log2 b : ℤ) := by
            have : (2 : ℚ) ^ 53 = 2 ^ (53 : ℤ) := by norm_cast
            rw [this, ← zpow_add₀ (by norm_num), ← zpow_add₀ (by norm_num)]
            congr 1; omega
        _ ≤ 2 ^ 53 * 2 ^ e₀ * b := by
            apply mul_le_mul_of_nonneg_left lb1; positivity
  obtain ⟨k1, k2⟩ := key _ rfl
  -- the final exponent
  have hfin : ∃ e : ℤ, rn a b = (
      let s := scale a b e
      let q := s.1 / s.2
      let r := s.1 % s.2
      let m := if 2 * r > s.2 ∨ (2 * r = s.2 ∧ q % 2 = 1) then q + 1 else q
      if m = 2 ^ 53 then ⟨2 ^ 52, e + 1⟩ else ⟨m, e⟩ : Dbl) ∧
      2 ^ 52 ≤ (scale a b e).1 / (scale a b e).2 ∧ (scale a b e).1 / (scale a b e).2 < 2 ^ 53 := by
    set e₀ : ℤ := (Nat.log2 a : ℤ) - Nat.log2 b - 52 with he₀
    obtain ⟨p0, s0⟩ := scale_spec a b e₀ hb
    by_cases hc : (scale a b e₀).1 / (scale a b e₀).2 < 2 ^ 52
    · refine ⟨e₀ - 1, by simp only [rn, ← he₀, hc, if_true], ?_⟩
      obtain ⟨p1, s1⟩ := scale_spec a b (e₀ - 1) hb
      have h2 : (a : ℚ) / b / 2 ^ (e₀ - 1) = 2 * ((a : ℚ) / b / 2 ^ e₀) := by
        rw [zpow_sub_one₀ (by norm_num)]; field_simp
      have hlt : ((scale a b e₀).1 : ℚ) / (scale a b e₀).2 < 2 ^ 52 := by
        rw [div_lt_iff₀ (by exact_mod_cast p0)]
        have := (Nat.div_lt_iff_lt_mul p0).1 hc
        exact_mod_cast this
      rw [s0] at hlt
      constructor
      · rw [Nat.le_div_iff_mul_le p1]
        have : (2 : ℚ) ^ 52 * (scale a b (e₀ - 1)).2 ≤ (scale a b (e₀ - 1)).1 := by
          rw [← le_div_iff₀ (by exact_mod_cast p1), s1, h2]
          linarith
        exact_mod_cast this
      · rw [Nat.div_lt_iff_lt_mul p1]
        have : ((scale a b (e₀ - 1)).1 : ℚ) < 2 ^ 53 * (scale a b (e₀ - 1)).2 := by
          rw [← div_lt_iff₀ (by exact_mod_cast p1), s1, h2]
          linarith
        exact_mod_cast this
    · refine ⟨e₀, by simp only [rn, ← he₀, hc, if_false], by omega, ?_⟩
      rw [Nat.div_lt_iff_lt_mul p0]
      have : ((scale a b e₀).1 : ℚ) < 2 ^ 53 * (scale a b e₀).2 := by
        rw [← div_lt_iff₀ (by exact_mod_cast p0), s0]
        exact k2
      exact_mod_cast this
  obtain ⟨e, hrn, hq1, hq2⟩ := hfin
  obtain ⟨p, s⟩ := scale_spec a b e hb
  dsimp only at hrn
  generalize hA : (scale a b e).1 = A at *
  generalize hB : (scale a b e).2 = B at *
  have hBq : (0 : ℚ) < B := by exact_mod_cast p
  obtain ⟨d1, d2⟩ := nat_div_le_rat A B p
  have hmod : A % B < B := Nat.mod_lt _ p
  set q := A / B with hq
  set r := A % B with hr
  have hiff : (2 * r > B ∨ (2 * r = B ∧ q % 2 = 1)) ↔
      ((1 : ℚ) / 2 < (r : ℚ) / B ∨ ((r : ℚ) / B = 1 / 2 ∧ q % 2 = 1)) := by
    have e1 : 2 * r > B ↔ (1 : ℚ) / 2 < (r : ℚ) / B := by
      rw [lt_div_iff₀ hBq]
      constructor
      · intro h
        have : (B : ℚ) < 2 * r := by exact_mod_cast h
        linarith
      · intro h
        have : (B : ℚ) < 2 * r := by linarith
        exact_mod_cast this
    have e2 : 2 * r = B ↔ (r : ℚ) / B = 1 / 2 := by
      rw [div_eq_iff hBq.ne']
      constructor
      · intro h
        have : (2 : ℚ) * r = B := by exact_mod_cast h
        linarith
      · intro h
        have : (2 : ℚ) * r = B := by linarith
        exact_mod_cast this
    rw [e1, e2]
  refine ⟨e, q, (r : ℚ) / B, ?_, by positivity, ?_, hq1, hq2, ?_, ?_⟩
  · rw [← d2, s]
    field_simp
  · rw [div_lt_one hBq]; exact_mod_cast hmod
  · rw [hrn]
    generalize hm : (if 2 * r > B ∨ 2 * r = B ∧ q % 2 = 1 then q + 1 else q) = m
    have hm1 : 2 ^ 52 ≤ m ∧ m ≤ 2 ^ 53 := by rw [← hm]; split <;> omega
    split
    · exact ⟨le_refl _, by norm_num⟩
    · rename_i hne
      exact ⟨hm1.1, lt_of_le_of_ne hm1.2 hne⟩
  · rw [hrn]
    by_cases hc : 2 * r > B ∨ (2 * r = B ∧ q % 2 = 1)
    · rw [if_pos (hiff.1 hc)]
      simp only [hc, if_true]
      split
      · rename_i h53
        simp only [rv]
        have : (q : ℚ) + 1 = 2 ^ 53 := by exact_mod_cast h53
        rw [this, zpow_add_one₀ (by norm_num)]
        push_cast
        ring
      · simp [rv]
    · rw [if_neg (fun h => hc (hiff.2 h))]
      simp only [hc, if_false]
      rw [if_neg (by omega)]
      rfl

theorem rn_pos (a b : ℕ) (ha : 0 < a) (hb : 0 < b) : 0 < (rn a b).rv := by
  obtain ⟨e, q, f, -, -, -, -, -, hn, -⟩ := rn_char a b ha hb
  have : (0 : ℚ) < (rn a b).m := by
    have := hn.1
    have h : 0 < (rn a b).m := by omega
    exact_mod_cast h
  exact mul_pos this (two_zpow_pos _)

theorem rn_normal (a b : ℕ) (ha : 0 < a) (hb : 0 < b) : Normal (rn a b) := by
  obtain ⟨e, q, f, -, -, -, -, -, hn, -⟩ := rn_char a b ha hb
  exact hn

/-- relative error of rounding, upper side -/
theorem rn_le (a b : ℕ) (ha : 0 < a) (hb : 0 < b) :
    (rn a b).rv ≤ (a : ℚ) / b * (1 + 1 / 2 ^ 53) := by
  obtain ⟨e, q, f, h1, f0, f1, q1, q2, hn, hv⟩ := rn_char a b ha hb
  rw [hv, h1]
  have hp := two_zpow_pos e
  have hq : (2 : ℚ) ^ 52 ≤ q := by exact_mod_cast q1
  have : (if 1 / 2 < f ∨ (f = 1 / 2 ∧ q % 2 = 1) then (q : ℚ) + 1 else q)
      ≤ (q + f) * (1 + 1 / 2 ^ 53) := by
    have h3 : (1 : ℚ) / 2 ≤ (q + f) * (1 / 2 ^ 53) := by
      have : (2 : ℚ) ^ 52 * (1 / 2 ^ 53) ≤ (q + f) * (1 / 2 ^ 53) :=
        mul_le_mul_of_nonneg_right (by linarith) (by norm_num)
      have e : (2 : ℚ) ^ 52 * (1 / 2 ^ 53) = 1 / 2 := by norm_num
      linarith
    split
    · rename_i h
      have : (1 : ℚ) / 2 ≤ f := by
        rcases h with h | h
        · exact le_of_lt h
        · exact h.1.ge
      linarith
    · linarith
  calc _ ≤ (q + f) * (1 + 1 / 2 ^ 53) * 2 ^ e := mul_le_mul_of_nonneg_right this hp.le
    _ = _ := by ring

/-- a representable value is rounded to itself -/
theorem rn_exact (a b : ℕ) (ha : 0 < a) (hb : 0 < b) (M : ℕ) (k : ℤ) (hM : M < 2 ^ 53)
    (h : (a : ℚ) / b = M * 2 ^ k) : (rn a b).rv = (a : ℚ) / b := by
  obtain ⟨e, q, f, h1, f0, f1, q1, q2, hn, hv⟩ := rn_char a b ha hb
  have hp := two_zpow_pos e
  -- (q + f) = M * 2^(k-e)
  have h2 : (q : ℚ) + f = M * 2 ^ (k - e) := by
    rw [zpow_sub₀ (by norm_num)]
    have : ((q : ℚ) + f) * 2 ^ e = M * 2 ^ k := by rw [← h1, h]
    field_simp
    exact this
  have hke : e ≤ k := by
    by_contra hc
    have h3 : (2 : ℚ) ^ (k - e) ≤ 2 ^ (-1 : ℤ) := zpow_le_zpow_right₀ (by norm_num) (by omega)
    have h4 : (M : ℚ) < 2 ^ 53 := by exact_mod_cast hM
    have h5 : (2 : ℚ) ^ 52 ≤ q := by exact_mod_cast q1
    have h6 : (M : ℚ) * 2 ^ (k - e) ≤ M * 2 ^ (-1 : ℤ) := mul_le_mul_of_nonneg_left h3 (by positivity)
    have h7 : (2 : ℚ) ^ (-1 : ℤ) = 1 / 2 := by norm_num
    rw [h7] at h6
    linarith
  have hf : f = 0 := by
    have h3 : (q : ℚ) + f = ((M * 2 ^ (k - e).toNat : ℕ) : ℚ) := by
      rw [h2, zpow_toNat (by omega)]; push_cast; rfl
    have hlo : (q : ℚ) ≤ ((M * 2 ^ (k - e).toNat : ℕ) : ℚ) := by linarith
    have hhi : ((M * 2 ^ (k - e).toNat : ℕ) : ℚ) < ((q + 1 : ℕ) : ℚ) := by push_cast at *; linarith
    have hlo' : q ≤ M * 2 ^ (k - e).toNat := by exact_mod_cast hlo
    have hhi' : M * 2 ^ (k - e).toNat < q + 1 := by exact_mod_cast hhi
    have : M * 2 ^ (k - e).toNat = q := by omega
    rw [this] at h3
    linarith
  rw [hv, h1, hf]
  norm_num

/-- the tie just above a power of two is rounded down to it -/
theorem rn_tie (a b : ℕ) (ha : 0 < a) (hb : 0 < b) (k : ℤ)
    (h : (a : ℚ) / b = (2 ^ 53 + 1) * 2 ^ k) : (rn a b).rv = 2 ^ 53 * 2 ^ k := by
  obtain ⟨e, q, f, h1, f0, f1, q1, q2, hn, hv⟩ := rn_char a b ha hb
  have hp := two_zpow_pos e
  have h2 : (q : ℚ) + f = (2 ^ 53 + 1) * 2 ^ (k - e) := by
    rw [zpow_sub₀ (by norm_num)]
    have : ((q : ℚ) + f) * 2 ^ e = (2 ^ 53 + 1) * 2 ^ k := by rw [← h1, h]
    field_simp
    linarith
  have hq1 : (2 : ℚ) ^ 52 ≤ q := by exact_mod_cast q1
  have hq2 : (q : ℚ) + 1 ≤ 2 ^ 53 := by exact_mod_cast q2
  have hke : k - e = -1 := by
    have hlt : k - e < 0 := by
      by_contra hc
      have h3 : (1 : ℚ) ≤ 2 ^ (k - e) := one_le_zpow₀ (by norm_num) (by omega)
      nlinarith
    have hgt : -2 < k - e := by
      by_contra hc
      have h3 : (2 : ℚ) ^ (k - e) ≤ 2 ^ (-2 : ℤ) := zpow_le_zpow_right₀ (by norm_num) (by omega)
      have h7 : (2 : ℚ) ^ (-2 : ℤ) = 1 / 4 := by norm_num
      rw [h7] at h3
      have h8 : ((2 : ℚ) ^ 53 + 1) * 2 ^ (k - e) ≤ (2 ^ 53 + 1) * (1 / 4) :=
        mul_le_mul_of_nonneg_left h3 (by norm_num)
      have h9 : ((2 : ℚ) ^ 53 + 1) * (1 / 4) < 2 ^ 52 := by norm_num
      linarith
    omega
  rw [hke] at h2
  have h3 : (q : ℚ) + f = 2 ^ 52 + 1 / 2 := by rw [h2]; norm_num
  have hq : q = 2 ^ 52 := by
    have : (q : ℚ) < 2 ^ 52 + 1 := by linarith
    have : q < 2 ^ 52 + 1 := by exact_mod_cast this
    omega
  subst hq
  have hf : f = 1 / 2 := by push_cast at h3; linarith
  rw [hv, if_neg (by rw [hf]; norm_num)]
  have : e = k + 1 := by omega
  rw [this, zpow_add_one₀ (by norm_num)]
  push_cast
  ring

end Dbl
end Verif
