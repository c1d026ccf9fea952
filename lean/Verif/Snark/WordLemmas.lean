import Verif.Snark.Word
import Verif.Fp.WordMul
import Verif.Fp.Lemmas

/-! Numeric meaning of the SNARK word routines. -/

namespace Verif.Snark

open scoped Verif.Fp
open Verif.Fp (W4 W8 adc adc_carry adc_lt adc_spec add4 add4_carry add4_ok add4_spec add4_val maskW_val mul4x1 mul4x1_spec sub4 sub4_borrow sub4_cases sub4_ok sub4_spec w0_mod2 w0_mod4 wAddNC_val wShr_val)

theorem p_eq : p = 21888242871839275222246405745257275088696311157297823662689037894645226208583 := by
  unfold p; rfl

theorem pTbl_ok (i : ℕ) : (pTbl i).Ok := W4.of_ok _

theorem pTbl_val (i : ℕ) (h : i ≤ 5) : (pTbl i).val = i * p := by
  unfold pTbl
  rw [W4.val_of_lt]
  have := p_eq
  have : i * p ≤ 5 * p := Nat.mul_le_mul_right _ h
  omega

theorem pTbl1_val : (pTbl 1).val = p := by rw [pTbl_val 1 (by norm_num), one_mul]

theorem addModp_ok {x : W4} (hx : x.Ok) : (addModp x).Ok := by
  unfold addModp; dsimp only; split
  · exact hx
  · exact sub4_ok _ _ _

theorem addModp_val {x : W4} (hx : x.Ok) :
    (addModp x).val = if x.val < p then x.val else x.val - p := by
  unfold addModp; dsimp only
  rcases sub4_cases hx (pTbl_ok 1) (c := 0) (by norm_num) with ⟨h0, h1, h2⟩ | ⟨h0, h1, h2⟩ <;>
    rw [pTbl1_val] at h1 h2
  · rw [h0, if_neg (by norm_num), if_neg (by omega), h2]; rfl
  · rw [h0, if_pos rfl, if_pos (by omega)]

theorem subModp_val (x : W4) (b : ℕ) :
    (subModp x b).val = (x.val + if b = 1 then p else 0) % W256 := by
  unfold subModp
  rw [add4_val, maskW_val, pTbl1_val, Nat.add_zero]

theorem subModp_ok (x : W4) (b : ℕ) : (subModp x b).Ok := add4_ok _ _ _

theorem wAdd_ok (x y : W4) : (wAdd x y).Ok := addModp_ok (add4_ok _ _ _)

theorem wAdd_val {x y : W4} (hs : x.val + y.val < W256) :
    (wAdd x y).val = if x.val + y.val < p then x.val + y.val else x.val + y.val - p := by
  unfold wAdd
  rw [addModp_val (add4_ok _ _ _), add4_val, Nat.add_zero, Nat.mod_eq_of_lt hs]

theorem wSub_ok (x y : W4) : (wSub x y).Ok := subModp_ok _ _

theorem wSub_val {x y : W4} (hx : x.Ok) (hy : y.Ok) :
    (wSub x y).val = if y.val ≤ x.val then x.val - y.val
      else (x.val + W256 - y.val + p) % W256 := by
  unfold wSub; dsimp only
  rw [subModp_val]
  have := W4.val_lt hx
  rcases sub4_cases hx hy (c := 0) (by norm_num) with ⟨h0, h1, h2⟩ | ⟨h0, h1, h2⟩
  · rw [h0, if_neg (by norm_num), h2, if_pos (by omega)]; omega
  · rw [h0, if_pos rfl, h2, if_neg (by omega)]; rfl

theorem wNeg_ok {x : W4} (hx : x.Ok) : (wNeg x).Ok := by
  unfold wNeg; split
  · exact hx
  · exact sub4_ok _ _ _

theorem wNeg_val {x : W4} (hx : x.Ok) (hp : x.val ≤ p) :
    (wNeg x).val = if x.val = 0 then 0 else p - x.val := by
  unfold wNeg
  by_cases h : x.val = 0
  · rw [if_pos ((W4.zero_iff x).2 h), if_pos h, h]
  · rw [if_neg (fun h' => h ((W4.zero_iff x).1 h')), if_neg h]
    have hs := sub4_cases (pTbl_ok 1) hx (c := 0) (by norm_num)
    rw [pTbl1_val] at hs
    omega

theorem halfTbl_ok (i : ℕ) : (halfTbl i).Ok := by unfold halfTbl; split <;> exact W4.of_ok _

theorem halfTbl_val (i : ℕ) : (halfTbl i).val = if i = 0 then 0 else (p + 1) / 2 := by
  unfold halfTbl
  have := p_eq
  split <;> rw [W4.val_of_lt] <;> omega

theorem quarterTbl_val (i : ℕ) (hi : i < 4) : (quarterTbl i).val = (p + 1) / 4 * i := by
  unfold quarterTbl
  have := p_eq
  split
  · subst i; rw [W4.val_of_lt] <;> norm_num
  · rw [W4.val_of_lt]
    have : (p + 1) / 4 * i ≤ (p + 1) / 4 * 4 := Nat.mul_le_mul_left _ (by omega)
    omega

theorem wDivBy2_val {x : W4} (hx : x.Ok) (hp : x.val < p) :
    (wDivBy2 x).val < p ∧ 2 * (wDivBy2 x).val = x.val + p * (x.val % 2) := by
  unfold wDivBy2
  rw [wAddNC_val, (wShr_val hx 1 (by simp)).2, halfTbl_val, w0_mod2]
  have := p_eq
  rcases Nat.mod_two_eq_zero_or_one x.val with h | h <;> rw [h]
  · rw [if_pos rfl]; omega
  · rw [if_neg (by norm_num)]; omega

theorem wDivBy4_val {x : W4} (hx : x.Ok) (hp : x.val < p) :
    (wDivBy4 x).val < p ∧ 4 * (wDivBy4 x).val = x.val + p * (x.val % 4) := by
  unfold wDivBy4
  rw [wAddNC_val, (wShr_val hx 2 (by simp)).2, w0_mod4, quarterTbl_val _ (by omega)]
  have := p_eq
  have h4 : x.val % 4 < 4 := Nat.mod_lt _ (by norm_num)
  generalize hm : x.val % 4 = m at *
  rcases (show m = 0 ∨ m = 1 ∨ m = 2 ∨ m = 3 by omega) with rfl | rfl | rfl | rfl <;> omega

theorem dAdd_ok (x y : W8) : (dAdd x y).Ok := ⟨add4_ok _ _ _, addModp_ok (add4_ok _ _ _)⟩

theorem dAdd_val {x y : W8} (h : x.val + y.val < W512) :
    (dAdd x y).val = if x.val + y.val < p * W256 then x.val + y.val
      else x.val + y.val - p * W256 := by
  have h1 := add4_spec x.lo y.lo 0
  have h2 := add4_spec x.hi y.hi (add4 x.lo y.lo 0).2
  have h3 := W4.val_lt (add4_ok x.lo y.lo 0)
  unfold dAdd W8.val at *; dsimp only at *
  rw [addModp_val (add4_ok _ _ _)]
  have := p_eq
  generalize (add4 x.hi y.hi (add4 x.lo y.lo 0).2) = a at *
  generalize (add4 x.lo y.lo 0) = b at *
  split <;> split <;> omega

theorem dSub_ok (x y : W8) : (dSub x y).Ok := ⟨sub4_ok _ _ _, subModp_ok _ _⟩

theorem dSub_val {x y : W8} (hx : x.Ok) (hy : y.Ok) (h : y.val ≤ x.val + p * W256) :
    (dSub x y).val = if y.val ≤ x.val then x.val - y.val
      else x.val + p * W256 - y.val := by
  have h1 := sub4_spec hx.1 hy.1 (c := 0) (by norm_num)
  have h2 := sub4_spec hx.2 hy.2 (sub4_borrow x.lo y.lo 0)
  have h3 := W4.val_lt (sub4_ok x.lo y.lo 0)
  have h5 := W4.val_lt (sub4_ok x.hi y.hi (sub4 x.lo y.lo 0).2)
  have h4 := sub4_borrow x.hi y.hi (sub4 x.lo y.lo 0).2
  unfold dSub W8.val at *; dsimp only at *
  rw [subModp_val]
  have := p_eq
  generalize (sub4 x.hi y.hi (sub4 x.lo y.lo 0).2) = a at *
  generalize (sub4 x.lo y.lo 0) = b at *
  rcases (show a.2 = 0 ∨ a.2 = 1 by omega) with h0 | h0 <;> rw [h0] at h2 ⊢ <;>
    simp only [if_true, if_false, zero_ne_one] <;> split <;> omega

theorem dNeg_ok (x : W8) : (dNeg x).Ok := ⟨sub4_ok _ _ _, sub4_ok _ _ _⟩

theorem dNeg_val {x : W8} (hx : x.Ok) (h : x.val ≤ p * W256) : (dNeg x).val = p * W256 - x.val := by
  have h1 := sub4_spec (pTbl_ok 0) hx.1 (c := 0) (by norm_num)
  have h2 := sub4_spec (pTbl_ok 1) hx.2 (sub4_borrow (pTbl 0) x.lo 0)
  have h3 := W8.val_lt (dNeg_ok x)
  have h4 := sub4_borrow (pTbl 1) x.hi (sub4 (pTbl 0) x.lo 0).2
  rw [pTbl1_val] at h2
  rw [pTbl_val 0 (by norm_num)] at h1
  have := p_eq
  unfold dNeg W8.val at *; dsimp only at *
  omega

theorem pNTbl2 : (pNTbl 2).lo = ⟨0, 0, 0, (pNTbl 2).lo.w3⟩ ∧ (pNTbl 2).val = p * (W256 / 4) := by
  have : pNTbl 2 = W8.of (p * (W256 / 4)) := by
    unfold pNTbl; rfl
  rw [this]
  constructor
  · decide +kernel
  · rw [W8.val_of_lt]; have := p_eq; omega

theorem pNTbl_ok (h : ℕ) : (pNTbl h).Ok := W8.of_ok _

theorem dSubOpt1_ok (x y : W8) : (dSubOpt1 x y).Ok := ⟨sub4_ok _ _ _, sub4_ok _ _ _⟩

theorem dSubOpt1_val {x y : W8} (hx : x.Ok) (hy : y.Ok) (h : y.val ≤ x.val + p * (W256 / 4))
    (h' : x.val + p * (W256 / 4) - y.val < W512) :
    (dSubOpt1 x y).val = x.val + p * (W256 / 4) - y.val := by
  obtain ⟨⟨hx0, hx1, hx2, hx3⟩, hxh⟩ := hx
  obtain ⟨hl, hv⟩ := pNTbl2
  have ha := adc_spec x.lo.w3 (pNTbl 2).lo.w3 0
  have hal := adc_lt x.lo.w3 (pNTbl 2).lo.w3 0
  have hb := add4_spec x.hi (pNTbl 2).hi (adc x.lo.w3 (pNTbl 2).lo.w3 0).2
  have hok := add4_ok x.hi (pNTbl 2).hi (adc x.lo.w3 (pNTbl 2).lo.w3 0).2
  have hlv : (pNTbl 2).lo.val = B64 * (B64 * (B64 * (pNTbl 2).lo.w3)) := by
    rw [hl]; unfold W4.val; dsimp only; omega
  unfold W8.val at hv
  rw [hlv] at hv
  have hres := W8.val_lt (dSubOpt1_ok x y)
  unfold dSubOpt1 at *
  unfold W8.val at *
  dsimp only at *
  generalize (pNTbl 2).lo.w3 = n3 at *
  generalize adc x.lo.w3 n3 0 = t at *
  generalize add4 x.hi (pNTbl 2).hi t.2 = hh at *
  have h1 := sub4_spec (x := ⟨x.lo.w0, x.lo.w1, x.lo.w2, t.1⟩) (y := y.lo) (c := 0)
    ⟨hx0, hx1, hx2, hal⟩ hy.1 (by norm_num)
  have h2 := sub4_spec hok hy.2 (sub4_borrow ⟨x.lo.w0, x.lo.w1, x.lo.w2, t.1⟩ y.lo 0)
  have hbb := sub4_borrow hh.1 y.hi (sub4 ⟨x.lo.w0, x.lo.w1, x.lo.w2, t.1⟩ y.lo 0).2
  generalize sub4 hh.1 y.hi (sub4 ⟨x.lo.w0, x.lo.w1, x.lo.w2, t.1⟩ y.lo 0).2 = s2 at *
  generalize sub4 ⟨x.lo.w0, x.lo.w1, x.lo.w2, t.1⟩ y.lo 0 = s1 at *
  have hxl : x.lo.val = x.lo.w0 + B64 * (x.lo.w1 + B64 * (x.lo.w2 + B64 * x.lo.w3)) := rfl
  rw [hxl] at *
  unfold W4.val at h1; dsimp only at h1
  have := p_eq
  unfold W4.val at *
  omega

theorem pp_spec : (1 + pp * p) % B64 = 0 := by decide +kernel

theorem q_spec (w : ℕ) : ∃ k, w + w * pp % B64 * p = B64 * k := by
  have h : (w + w * pp % B64 * p) % B64 = 0 := by
    have : (w + w * pp % B64 * p) % B64 = (w * (1 + pp * p)) % B64 := by
      have e : w * (1 + pp * p) = w + w * pp * p := by ring
      rw [e, Nat.add_mod, Nat.mul_mod (w * pp % B64) p B64, Nat.mod_mod,
        ← Nat.mul_mod, ← Nat.add_mod]
    rw [this, Nat.mul_mod, pp_spec, Nat.mul_zero, Nat.zero_mod]
  exact ⟨_, (Nat.mul_div_cancel' (Nat.dvd_of_mod_eq_zero h)).symm⟩

/-- Numeric effect of one Montgomery round on the five-word accumulator. -/
theorem montgomery1_spec {c x : W4} {c4 y : ℕ} (hc4 : c4 < B64) (hx : x.Ok) (hy : y < B64)
    (hb : c.val + W256 * c4 + x.val * y < B64 * W256) :
    (montgomery1 c c4 x y).1.Ok ∧ (montgomery1 c c4 x y).2 < B64 ∧
    ∃ q, q < B64 ∧ B64 * ((montgomery1 c c4 x y).1.val + W256 * (montgomery1 c c4 x y).2)
      = c.val + W256 * c4 + x.val * y + q * p := by
  obtain ⟨mok, mlt, mv⟩ := mul4x1_spec hx hy
  rw [Nat.mul_comm x.val y] at hb ⊢
  rw [← mv] at hb ⊢
  unfold montgomery1; dsimp only
  generalize mul4x1 x y = m at *
  have sv := add4_spec c m.1 0
  have sok := add4_ok c m.1 0
  generalize add4 c m.1 0 = s at *
  have s4v : (c4 + m.2 + s.2) % B64 = c4 + m.2 + s.2 := by
    apply Nat.mod_eq_of_lt; omega
  rw [s4v]
  have qlt : s.1.w0 * pp % B64 < B64 := Nat.mod_lt _ (by norm_num)
  obtain ⟨k, hk⟩ := q_spec s.1.w0
  generalize s.1.w0 * pp % B64 = q at *
  obtain ⟨nok, nlt, nv⟩ := mul4x1_spec (pTbl_ok 1) qlt
  rw [pTbl1_val] at nv
  generalize mul4x1 (pTbl 1) q = n at *
  have tv := add4_spec s.1 n.1 0
  have tok := add4_ok s.1 n.1 0
  generalize add4 s.1 n.1 0 = t at *
  have t4v := adc_spec (c4 + m.2 + s.2) n.2 t.2
  have t4l := adc_lt (c4 + m.2 + s.2) n.2 t.2
  generalize adc (c4 + m.2 + s.2) n.2 t.2 = t4 at *
  have hqp : q * p < B64 * p := Nat.mul_lt_mul_of_pos_right qlt (by have := p_eq; omega)
  have hp := p_eq
  obtain ⟨tok0, tok1, tok2, tok3⟩ := tok
  have hw0 : t.1.w0 = 0 := by
    clear mok hx nok sok
    have h1 : s.1.val = s.1.w0 + B64 * (s.1.w1 + B64 * (s.1.w2 + B64 * s.1.w3)) := rfl
    have h2 : t.1.val = t.1.w0 + B64 * (t.1.w1 + B64 * (t.1.w2 + B64 * t.1.w3)) := rfl
    generalize q * p = qp at *
    generalize s.1.w1 + B64 * (s.1.w2 + B64 * s.1.w3) = s' at *
    generalize t.1.w1 + B64 * (t.1.w2 + B64 * t.1.w3) = t' at *
    omega
  have hc1 : t4.2 < B64 := by omega
  rw [hw0, Nat.zero_add, Nat.mod_eq_of_lt hc1]
  refine ⟨⟨tok1, tok2, tok3, t4l⟩, hc1, q, qlt, ?_⟩
  have h2 : t.1.val = t.1.w0 + B64 * (t.1.w1 + B64 * (t.1.w2 + B64 * t.1.w3)) := rfl
  unfold W4.val at *
  dsimp only at *
  generalize q * p = qp at *
  omega

theorem montgomery1First_eq (x : W4) (y : ℕ) (hx : x.Ok) (hy : y < B64) :
    montgomery1First x y = montgomery1 ⟨0, 0, 0, 0⟩ 0 x y := by
  obtain ⟨⟨h0, h1, h2, h3⟩, hl, -⟩ := mul4x1_spec hx hy
  unfold montgomery1First montgomery1
  have : add4 ⟨0, 0, 0, 0⟩ (mul4x1 x y).1 0 = ((mul4x1 x y).1, 0) := by
    unfold add4 adc; dsimp only
    generalize mul4x1 x y = m at *
    obtain ⟨⟨m0, m1, m2, m3⟩, m4⟩ := m
    dsimp only at *
    simp only [Nat.zero_add, Nat.add_zero, Nat.div_eq_of_lt h0, Nat.div_eq_of_lt h1,
      Nat.div_eq_of_lt h2, Nat.div_eq_of_lt h3, Nat.mod_eq_of_lt h0, Nat.mod_eq_of_lt h1,
      Nat.mod_eq_of_lt h2, Nat.mod_eq_of_lt h3]
  dsimp only
  rw [this]; dsimp only
  rw [Nat.zero_add, Nat.add_zero, Nat.mod_eq_of_lt hl]

theorem mont_bound {C X y q C' : ℕ} (hC : C < X + p) (hy : y < B64) (hq : q < B64)
    (h : B64 * C' = C + X * y + q * p) : C' < X + p := by
  have h1 : X * y ≤ X * (B64 - 1) := Nat.mul_le_mul_left _ (by omega)
  have h2 : q * p ≤ (B64 - 1) * p := Nat.mul_le_mul_right _ (by omega)
  generalize X * y = a at *
  generalize q * p = b at *
  omega

theorem mont_nowrap {C X y : ℕ} (hC : C < X + p) (hy : y < B64) (hX : X + p ≤ W256) :
    C + X * y < B64 * W256 := by
  have h1 : X * y ≤ X * (B64 - 1) := Nat.mul_le_mul_left _ (by omega)
  have := p_eq
  generalize X * y = a at *
  omega

/-- Result of the conditional subtraction: canonical and congruent. -/
theorem cond_sub {c : ℕ} (h : c < 2 * p) :
    (if c < p then c else c - p) < p ∧ (if c < p then c else c - p) % p = c % p := by
  split
  · exact ⟨by assumption, rfl⟩
  · rename_i hc
    refine ⟨by omega, ?_⟩
    rw [Nat.mod_eq_sub_mod (by omega : c ≥ p)]

/-- `Fp_mul`: for x + p ≤ 2^256 and x*y < p * 2^256 (in particular canonical operands) the result
is the canonical number congruent to x * y / 2^256. -/
theorem wMul_spec {x y : W4} (hx : x.Ok) (hy : y.Ok) (hX : x.val + p ≤ W256)
    (hXY : x.val * y.val < p * W256) :
    (wMul x y).Ok ∧ (wMul x y).val < p ∧ W256 * (wMul x y).val % p = x.val * y.val % p := by
  obtain ⟨hy0, hy1, hy2, hy3⟩ := hy
  have hp := p_eq
  have hyv : y.val = y.w0 + B64 * (y.w1 + B64 * (y.w2 + B64 * y.w3)) := rfl
  unfold wMul
  rw [montgomery1First_eq x y.w0 hx hy0]
  dsimp only
  have z0 : (⟨0, 0, 0, 0⟩ : W4).val + W256 * 0 = 0 := rfl
  obtain ⟨ok1, l1, q1, hq1, e1⟩ := montgomery1_spec (c := ⟨0, 0, 0, 0⟩) (c4 := 0)
    (by norm_num) hx hy0
    (mont_nowrap (X := x.val) (by rw [z0]; omega) hy0 hX)
  rw [z0] at e1
  have b1 := mont_bound (show 0 < x.val + p by omega) hy0 hq1 e1
  generalize montgomery1 ⟨0, 0, 0, 0⟩ 0 x y.w0 = c1 at *
  obtain ⟨ok2, l2, q2, hq2, e2⟩ := montgomery1_spec l1 hx hy1 (mont_nowrap b1 hy1 hX)
  have b2 := mont_bound b1 hy1 hq2 e2
  generalize montgomery1 c1.1 c1.2 x y.w1 = c2 at *
  obtain ⟨ok3, l3, q3, hq3, e3⟩ := montgomery1_spec l2 hx hy2 (mont_nowrap b2 hy2 hX)
  have b3 := mont_bound b2 hy2 hq3 e3
  generalize montgomery1 c2.1 c2.2 x y.w2 = c3 at *
  obtain ⟨ok4, l4, q4, hq4, e4⟩ := montgomery1_spec l3 hx hy3 (mont_nowrap b3 hy3 hX)
  have b4 := mont_bound b3 hy3 hq4 e4
  generalize montgomery1 c3.1 c3.2 x y.w3 = c4 at *
  have hc4 : c4.2 = 0 := by omega
  rw [hc4, Nat.mul_zero, Nat.add_zero] at e4
  have key : W256 * c4.1.val
      = x.val * y.val + (q1 + B64 * (q2 + B64 * (q3 + B64 * q4))) * p := by
    have e : x.val * y.val + (q1 + B64 * (q2 + B64 * (q3 + B64 * q4))) * p
      = (x.val * y.w0 + q1 * p) + B64 * ((x.val * y.w1 + q2 * p) + B64 *
        ((x.val * y.w2 + q3 * p) + B64 * (x.val * y.w3 + q4 * p))) := by rw [hyv]; ring
    rw [e]
    rw [Nat.add_assoc] at e1 e2 e3 e4
    generalize x.val * y.w0 + q1 * p = a1 at *
    generalize x.val * y.w1 + q2 * p = a2 at *
    generalize x.val * y.w2 + q3 * p = a3 at *
    generalize x.val * y.w3 + q4 * p = a4 at *
    omega
  have hQ : (q1 + B64 * (q2 + B64 * (q3 + B64 * q4))) < W256 := by omega
  have hQp : (q1 + B64 * (q2 + B64 * (q3 + B64 * q4))) * p < W256 * p :=
    Nat.mul_lt_mul_of_pos_right hQ (by omega)
  have h2p : c4.1.val < 2 * p := by
    generalize (q1 + B64 * (q2 + B64 * (q3 + B64 * q4))) * p = a at *
    generalize x.val * y.val = b at *
    omega
  refine ⟨addModp_ok ok4, ?_⟩
  rw [addModp_val ok4]
  obtain ⟨r1, r2⟩ := cond_sub h2p
  refine ⟨r1, ?_⟩
  rw [Nat.mul_mod, r2, ← Nat.mul_mod, key, Nat.add_mul_mod_self_right]

/-- One round of `mont_mod`. -/
theorem modRound_spec {c : W4} {h0 : ℕ} (hc : c.Ok) (hh : h0 < B64) :
    (modRound c h0).1.w0 = 0 ∧ (modRound c h0).1.Ok ∧ (modRound c h0).2.1 < B64 ∧
    (modRound c h0).2.2 ≤ 1 ∧
    ∃ q, q < B64 ∧ (modRound c h0).1.val + W256 * ((modRound c h0).2.1 + B64 * (modRound c h0).2.2)
      = c.val + W256 * h0 + q * p := by
  unfold modRound; dsimp only
  have qlt : c.w0 * pp % B64 < B64 := Nat.mod_lt _ (by norm_num)
  obtain ⟨k, hk⟩ := q_spec c.w0
  generalize c.w0 * pp % B64 = q at *
  obtain ⟨nok, nlt, nv⟩ := mul4x1_spec (pTbl_ok 1) qlt
  rw [pTbl1_val] at nv
  generalize mul4x1 (pTbl 1) q = n at *
  have tv := add4_spec c n.1 0
  have tok := add4_ok c n.1 0
  have tc := add4_carry hc nok (c := 0) (by norm_num)
  generalize add4 c n.1 0 = t at *
  have uv := adc_spec h0 n.2 t.2
  have ul := adc_lt h0 n.2 t.2
  have uc := adc_carry hh nlt tc
  generalize adc h0 n.2 t.2 = u at *
  obtain ⟨tok0, tok1, tok2, tok3⟩ := tok
  refine ⟨?_, ⟨tok0, tok1, tok2, tok3⟩, ul, uc, q, qlt, by omega⟩
  have h1 : c.val = c.w0 + B64 * (c.w1 + B64 * (c.w2 + B64 * c.w3)) := rfl
  have h2 : t.1.val = t.1.w0 + B64 * (t.1.w1 + B64 * (t.1.w2 + B64 * t.1.w3)) := rfl
  generalize q * p = qp at *
  generalize c.w1 + B64 * (c.w2 + B64 * c.w3) = s' at *
  generalize t.1.w1 + B64 * (t.1.w2 + B64 * t.1.w3) = t' at *
  omega

/-- `mont_mod` on any X < 3p * 2^256: the number (X + Q * p) / 2^256 formed before the final conditional
subtraction. -/
theorem wMod_pre {x : W8} (hx : x.Ok) (hX : x.val < p * W256 * 3) :
    (wMod x).Ok ∧ ∃ m Q, W256 * m = x.val + Q * p ∧ Q < W256 ∧
      (wMod x).val = if m < p then m else m - p := by
  obtain ⟨hlo, h0, h1, h2, h3⟩ := hx
  have hp := p_eq
  unfold wMod; dsimp only
  obtain ⟨z1, o1, l1, c1, q1, hq1, e1⟩ := modRound_spec hlo h0
  generalize modRound x.lo x.hi.w0 = r1 at *
  have a1v := adc_spec x.hi.w1 0 r1.2.2
  have a1l := adc_lt x.hi.w1 0 r1.2.2
  generalize adc x.hi.w1 0 r1.2.2 = a1 at *
  have a2v := adc_spec x.hi.w2 0 a1.2
  have a2l := adc_lt x.hi.w2 0 a1.2
  generalize adc x.hi.w2 0 a1.2 = a2 at *
  have a3v := adc_spec x.hi.w3 0 a2.2
  have a3l := adc_lt x.hi.w3 0 a2.2
  generalize adc x.hi.w3 0 a2.2 = a3 at *
  obtain ⟨z2, o2, l2, c2, q2, hq2, e2⟩ := modRound_spec
    (c := ⟨r1.1.w1, r1.1.w2, r1.1.w3, r1.2.1⟩) ⟨o1.2.1, o1.2.2.1, o1.2.2.2, l1⟩ a1l
  generalize modRound ⟨r1.1.w1, r1.1.w2, r1.1.w3, r1.2.1⟩ a1.1 = r2 at *
  have b2v := adc_spec a2.1 0 r2.2.2
  have b2l := adc_lt a2.1 0 r2.2.2
  generalize adc a2.1 0 r2.2.2 = b2 at *
  have b3v := adc_spec a3.1 0 b2.2
  have b3l := adc_lt a3.1 0 b2.2
  generalize adc a3.1 0 b2.2 = b3 at *
  obtain ⟨z3, o3, l3, c3, q3, hq3, e3⟩ := modRound_spec
    (c := ⟨r2.1.w1, r2.1.w2, r2.1.w3, r2.2.1⟩) ⟨o2.2.1, o2.2.2.1, o2.2.2.2, l2⟩ b2l
  generalize modRound ⟨r2.1.w1, r2.1.w2, r2.1.w3, r2.2.1⟩ b2.1 = r3 at *
  have d3v := adc_spec b3.1 0 r3.2.2
  have d3l := adc_lt b3.1 0 r3.2.2
  generalize adc b3.1 0 r3.2.2 = d3 at *
  obtain ⟨z4, o4, l4, c4, q4, hq4, e4⟩ := modRound_spec
    (c := ⟨r3.1.w1, r3.1.w2, r3.1.w3, r3.2.1⟩) ⟨o3.2.1, o3.2.2.1, o3.2.2.2, l3⟩ d3l
  generalize modRound ⟨r3.1.w1, r3.1.w2, r3.1.w3, r3.2.1⟩ d3.1 = r4 at *
  have okf : (⟨r4.1.w1, r4.1.w2, r4.1.w3, r4.2.1⟩ : W4).Ok := ⟨o4.2.1, o4.2.2.1, o4.2.2.2, l4⟩
  -- split the four value equations
  have bq : ∀ q, q < B64 → q * p ≤ (B64 - 1) * p := fun q hq => Nat.mul_le_mul_right _ (by omega)
  have k1 := bq _ hq1
  have k2 := bq _ hq2
  have k3 := bq _ hq3
  have k4 := bq _ hq4
  have xv : x.val = x.lo.val + W256 * x.hi.val := rfl
  have hv : x.hi.val = x.hi.w0 + B64 * (x.hi.w1 + B64 * (x.hi.w2 + B64 * x.hi.w3)) := rfl
  have f1 : r1.1.val = r1.1.w0 + B64 * (r1.1.w1 + B64 * (r1.1.w2 + B64 * r1.1.w3)) := rfl
  have f2 : r2.1.val = r2.1.w0 + B64 * (r2.1.w1 + B64 * (r2.1.w2 + B64 * r2.1.w3)) := rfl
  have f3 : r3.1.val = r3.1.w0 + B64 * (r3.1.w1 + B64 * (r3.1.w2 + B64 * r3.1.w3)) := rfl
  have f4 : r4.1.val = r4.1.w0 + B64 * (r4.1.w1 + B64 * (r4.1.w2 + B64 * r4.1.w3)) := rfl
  have g1 : (⟨r1.1.w1, r1.1.w2, r1.1.w3, r1.2.1⟩ : W4).val
    = r1.1.w1 + B64 * (r1.1.w2 + B64 * (r1.1.w3 + B64 * r1.2.1)) := rfl
  have g2 : (⟨r2.1.w1, r2.1.w2, r2.1.w3, r2.2.1⟩ : W4).val
    = r2.1.w1 + B64 * (r2.1.w2 + B64 * (r2.1.w3 + B64 * r2.2.1)) := rfl
  have g3 : (⟨r3.1.w1, r3.1.w2, r3.1.w3, r3.2.1⟩ : W4).val
    = r3.1.w1 + B64 * (r3.1.w2 + B64 * (r3.1.w3 + B64 * r3.2.1)) := rfl
  have g4 : (⟨r4.1.w1, r4.1.w2, r4.1.w3, r4.2.1⟩ : W4).val
    = r4.1.w1 + B64 * (r4.1.w2 + B64 * (r4.1.w3 + B64 * r4.2.1)) := rfl
  rw [g1] at e2
  rw [g2] at e3
  rw [g3] at e4
  rw [f1, z1] at e1
  rw [f2, z2] at e2
  rw [f3, z3] at e3
  rw [f4, z4] at e4
  have hQ : (q1 + B64 * (q2 + B64 * (q3 + B64 * q4))) < W256 := by omega
  have hQp : (q1 + B64 * (q2 + B64 * (q3 + B64 * q4))) * p < W256 * p :=
    Nat.mul_lt_mul_of_pos_right hQ (by omega)
  have hQe : (q1 + B64 * (q2 + B64 * (q3 + B64 * q4))) * p
    = q1 * p + B64 * (q2 * p + B64 * (q3 * p + B64 * (q4 * p))) := by ring
  clear o1 o2 o3 o4 hlo z1 z2 z3 z4 f1 f2 f3 f4 bq g1 g2 g3
  have key : W256 * (⟨r4.1.w1, r4.1.w2, r4.1.w3, r4.2.1⟩ : W4).val
      = x.val + (q1 + B64 * (q2 + B64 * (q3 + B64 * q4))) * p := by
    rw [g4]
    clear hQ okf
    rw [hQe]
    clear hQp hQe
    rw [hp] at hX
    norm_num only at hX
    generalize q1 * p = t1 at *
    generalize q2 * p = t2 at *
    generalize q3 * p = t3 at *
    generalize q4 * p = t4 at *
    rw [hp] at k1 k2 k3 k4
    norm_num only at k1 k2 k3 k4
    clear hp
    omega
  refine ⟨addModp_ok okf, _, _, key, hQ, ?_⟩
  rw [addModp_val okf]

/-- `mont_mod`: for X < p * 2^256 the result is the canonical number congruent to X / 2^256. -/
theorem wMod_spec {x : W8} (hx : x.Ok) (hX : x.val < p * W256) :
    (wMod x).Ok ∧ (wMod x).val < p ∧ W256 * (wMod x).val % p = x.val % p := by
  obtain ⟨ok, m, Q, key, hQ, hv⟩ := wMod_pre hx (lt_of_lt_of_le hX (Nat.le_mul_of_pos_right _ (by norm_num)))
  have hQp : Q * p < W256 * p := Nat.mul_lt_mul_of_pos_right hQ (by rw [p_eq]; norm_num)
  have h2p : m < 2 * p := by omega
  refine ⟨ok, ?_⟩
  rw [hv]
  obtain ⟨r1, r2⟩ := cond_sub h2p
  refine ⟨r1, ?_⟩
  rw [Nat.mul_mod, r2, ← Nat.mul_mod, key, Nat.add_mul_mod_self_right]

/-- `mont_mod` above p * 2^256: the result is still congruent, and exceeds p by at most the excess. -/
theorem wMod_wide {x : W8} (hx : x.Ok) (hX : x.val < p * W256 * 3) :
    (wMod x).Ok ∧ W256 * (wMod x).val < x.val + p * W256 ∧
      ((wMod x).val < p ∨ W256 * (wMod x).val < x.val) ∧
      W256 * (wMod x).val % p = x.val % p := by
  obtain ⟨ok, m, Q, key, hQ, hv⟩ := wMod_pre hx hX
  have hQp : Q * p < W256 * p := Nat.mul_lt_mul_of_pos_right hQ (by rw [p_eq]; norm_num)
  refine ⟨ok, ?_⟩
  rw [hv]
  split
  · refine ⟨by omega, .inl (by assumption), ?_⟩
    rw [key, Nat.add_mul_mod_self_right]
  · refine ⟨by omega, .inr (by omega), ?_⟩
    have e : W256 * m = W256 * (m - p) + W256 * p := by omega
    rw [← Nat.add_mul_mod_self_right (W256 * (m - p)) W256 p, ← e, key, Nat.add_mul_mod_self_right]

end Verif.Snark
