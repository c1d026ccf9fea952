import Verif.Fp.Word

/-! Numeric meaning of the word-level routines. -/

namespace Verif.Fp

theorem p_eq : p = 16798108731015832284940804142231733909889187121439069848933715426072753864723 := by
  unfold p; rfl

theorem W4.val_lt {x : W4} (h : x.Ok) : x.val < W256 := by
  obtain ⟨h0, h1, h2, h3⟩ := h
  unfold W4.val; omega

theorem W4.of_ok (n : ℕ) : (W4.of n).Ok := by
  refine ⟨?_, ?_, ?_, ?_⟩ <;> exact Nat.mod_lt _ (by norm_num)

theorem W4.val_of (n : ℕ) : (W4.of n).val = n % W256 := by
  unfold W4.val W4.of; dsimp only; norm_num only; omega

theorem W4.of_val {x : W4} (h : x.Ok) : W4.of x.val = x := by
  obtain ⟨h0, h1, h2, h3⟩ := h
  cases x with
  | mk a b c d =>
  simp only [W4.val, W4.of, W4.mk.injEq] at *
  norm_num only
  refine ⟨?_, ?_, ?_, ?_⟩ <;> omega

theorem W4.val_of_lt {n : ℕ} (h : n < W256) : (W4.of n).val = n := by
  rw [W4.val_of, Nat.mod_eq_of_lt h]

theorem W8.of_ok (n : ℕ) : (W8.of n).Ok := ⟨W4.of_ok _, W4.of_ok _⟩

theorem W8.val_lt {x : W8} (h : x.Ok) : x.val < W512 := by
  have := W4.val_lt h.1
  have := W4.val_lt h.2
  unfold W8.val; omega

theorem W8.val_of (n : ℕ) : (W8.of n).val = n % W512 := by
  unfold W8.val W8.of
  rw [W4.val_of, W4.val_of]; omega

theorem W8.val_of_lt {n : ℕ} (h : n < W512) : (W8.of n).val = n := by
  rw [W8.val_of, Nat.mod_eq_of_lt h]

theorem adc_spec (a b c : ℕ) : (adc a b c).1 + B64 * (adc a b c).2 = a + b + c :=
  Nat.mod_add_div _ _
theorem adc_lt (a b c : ℕ) : (adc a b c).1 < B64 := Nat.mod_lt _ (by norm_num)
theorem adc_carry {a b c : ℕ} (ha : a < B64) (hb : b < B64) (hc : c ≤ 1) : (adc a b c).2 ≤ 1 := by
  unfold adc; dsimp only; omega

theorem sbb_spec {a b c : ℕ} (ha : a < B64) (hb : b < B64) (hc : c ≤ 1) :
    (sbb a b c).1 + b + c = a + B64 * (sbb a b c).2 := by
  unfold sbb; dsimp only; split <;> omega
theorem sbb_lt (a b c : ℕ) : (sbb a b c).1 < B64 := Nat.mod_lt _ (by norm_num)
theorem sbb_borrow (a b c : ℕ) : (sbb a b c).2 ≤ 1 := by
  unfold sbb; dsimp only; split <;> omega

theorem add4_ok (x y : W4) (c : ℕ) : (add4 x y c).1.Ok :=
  ⟨adc_lt _ _ _, adc_lt _ _ _, adc_lt _ _ _, adc_lt _ _ _⟩

theorem add4_spec (x y : W4) (c : ℕ) :
    (add4 x y c).1.val + W256 * (add4 x y c).2 = x.val + y.val + c := by
  unfold add4 W4.val; dsimp only
  have h0 := adc_spec x.w0 y.w0 c
  have h1 := adc_spec x.w1 y.w1 (adc x.w0 y.w0 c).2
  have h2 := adc_spec x.w2 y.w2 (adc x.w1 y.w1 (adc x.w0 y.w0 c).2).2
  have h3 := adc_spec x.w3 y.w3 (adc x.w2 y.w2 (adc x.w1 y.w1 (adc x.w0 y.w0 c).2).2).2
  generalize adc x.w3 y.w3 (adc x.w2 y.w2 (adc x.w1 y.w1 (adc x.w0 y.w0 c).2).2).2 = a3 at *
  generalize adc x.w2 y.w2 (adc x.w1 y.w1 (adc x.w0 y.w0 c).2).2 = a2 at *
  generalize adc x.w1 y.w1 (adc x.w0 y.w0 c).2 = a1 at *
  generalize adc x.w0 y.w0 c = a0 at *
  omega

theorem add4_carry {x y : W4} {c : ℕ} (hx : x.Ok) (hy : y.Ok) (hc : c ≤ 1) :
    (add4 x y c).2 ≤ 1 := by
  have h := add4_spec x y c
  have := W4.val_lt hx
  have := W4.val_lt hy
  omega

theorem add4_val (x y : W4) (c : ℕ) : (add4 x y c).1.val = (x.val + y.val + c) % W256 := by
  have h := add4_spec x y c
  have := W4.val_lt (add4_ok x y c)
  omega

theorem sub4_ok (x y : W4) (c : ℕ) : (sub4 x y c).1.Ok :=
  ⟨sbb_lt _ _ _, sbb_lt _ _ _, sbb_lt _ _ _, sbb_lt _ _ _⟩

theorem sub4_borrow (x y : W4) (c : ℕ) : (sub4 x y c).2 ≤ 1 := sbb_borrow _ _ _

theorem sub4_spec {x y : W4} {c : ℕ} (hx : x.Ok) (hy : y.Ok) (hc : c ≤ 1) :
    (sub4 x y c).1.val + y.val + c = x.val + W256 * (sub4 x y c).2 := by
  obtain ⟨hx0, hx1, hx2, hx3⟩ := hx
  obtain ⟨hy0, hy1, hy2, hy3⟩ := hy
  unfold sub4 W4.val; dsimp only
  have h0 := sbb_spec hx0 hy0 hc
  have b0 := sbb_borrow x.w0 y.w0 c
  have h1 := sbb_spec hx1 hy1 b0
  have b1 := sbb_borrow x.w1 y.w1 (sbb x.w0 y.w0 c).2
  have h2 := sbb_spec hx2 hy2 b1
  have b2 := sbb_borrow x.w2 y.w2 (sbb x.w1 y.w1 (sbb x.w0 y.w0 c).2).2
  have h3 := sbb_spec hx3 hy3 b2
  generalize sbb x.w3 y.w3 (sbb x.w2 y.w2 (sbb x.w1 y.w1 (sbb x.w0 y.w0 c).2).2).2 = a3 at *
  generalize sbb x.w2 y.w2 (sbb x.w1 y.w1 (sbb x.w0 y.w0 c).2).2 = a2 at *
  generalize sbb x.w1 y.w1 (sbb x.w0 y.w0 c).2 = a1 at *
  generalize sbb x.w0 y.w0 c = a0 at *
  omega

/-- Borrow and value of a four-word subtraction. -/
theorem sub4_cases {x y : W4} {c : ℕ} (hx : x.Ok) (hy : y.Ok) (hc : c ≤ 1) :
    ((sub4 x y c).2 = 0 ∧ y.val + c ≤ x.val ∧ (sub4 x y c).1.val = x.val - (y.val + c)) ∨
    ((sub4 x y c).2 = 1 ∧ x.val < y.val + c ∧
      (sub4 x y c).1.val = x.val + W256 - (y.val + c)) := by
  have h := sub4_spec hx hy hc
  have hb := sub4_borrow x y c
  have hl := W4.val_lt (sub4_ok x y c)
  have := W4.val_lt hx
  have := W4.val_lt hy
  rcases (show (sub4 x y c).2 = 0 ∨ (sub4 x y c).2 = 1 by omega) with h0 | h0 <;>
    rw [h0] at h ⊢ <;> omega

theorem pTbl_ok (i : ℕ) : (pTbl i).Ok := W4.of_ok _
theorem pTbl_val (i : ℕ) (h : i ≤ 6) : (pTbl i).val = i * p := by
  unfold pTbl
  rw [W4.val_of_lt]
  have := p_eq
  have : i * p ≤ 6 * p := Nat.mul_le_mul_right _ h
  omega
theorem pTbl1_val : (pTbl 1).val = p := by rw [pTbl_val 1 (by norm_num), one_mul]

theorem addModp_ok {x : W4} (hx : x.Ok) : (addModp x).Ok := by
  unfold addModp; dsimp only; split
  · exact hx
  · exact sub4_ok _ _ _

theorem addModp_val {x : W4} (hx : x.Ok) :
    (addModp x).val = if x.val < p then x.val else x.val - p := by
  unfold addModp; dsimp only
  rcases sub4_cases hx (pTbl_ok 1) (c := 0) (by norm_num) with ⟨h0, h1, h2⟩ | ⟨h0, h1, h2⟩ <;>
    rw [pTbl1_val] at h1 h2
  · rw [h0, if_neg (by norm_num), if_neg (by omega), h2]; rfl
  · rw [h0, if_pos rfl, if_pos (by omega)]

theorem maskW_ok {m : ℕ} {y : W4} (hy : y.Ok) : (maskW m y).Ok := by
  unfold maskW; split
  · exact hy
  · refine ⟨?_, ?_, ?_, ?_⟩ <;> norm_num
theorem maskW_val (m : ℕ) (y : W4) : (maskW m y).val = if m = 1 then y.val else 0 := by
  unfold maskW; split <;> rfl

theorem subModp_val (x : W4) (b : ℕ) :
    (subModp x b).val = (x.val + if b = 1 then p else 0) % W256 := by
  unfold subModp
  rw [add4_val, maskW_val, pTbl1_val, Nat.add_zero]

theorem subModp_ok (x : W4) (b : ℕ) : (subModp x b).Ok := add4_ok _ _ _

theorem wAddNC_val (x y : W4) : (wAddNC x y).val = (x.val + y.val) % W256 := by
  unfold wAddNC; rw [add4_val]; rfl
theorem wAddNC_ok (x y : W4) : (wAddNC x y).Ok := add4_ok _ _ _

theorem wSubNC_ok (x y : W4) : (wSubNC x y).Ok := sub4_ok _ _ _
theorem wSubNC_val {x y : W4} (hx : x.Ok) (hy : y.Ok) :
    (wSubNC x y).val = (x.val + (W256 - y.val)) % W256 := by
  unfold wSubNC
  have := W4.val_lt hx
  have := W4.val_lt hy
  rcases sub4_cases hx hy (c := 0) (by norm_num) with ⟨_, h1, h2⟩ | ⟨_, h1, h2⟩ <;> omega

theorem wAdd_ok (x y : W4) : (wAdd x y).Ok := addModp_ok (add4_ok _ _ _)
theorem wAdd_val {x y : W4} (hs : x.val + y.val < W256) :
    (wAdd x y).val = if x.val + y.val < p then x.val + y.val else x.val + y.val - p := by
  unfold wAdd
  rw [addModp_val (add4_ok _ _ _), add4_val, Nat.add_zero, Nat.mod_eq_of_lt hs]

theorem wSub_ok (x y : W4) : (wSub x y).Ok := subModp_ok _ _
theorem wSub_val {x y : W4} (hx : x.Ok) (hy : y.Ok) :
    (wSub x y).val = if y.val ≤ x.val then x.val - y.val
      else (x.val + W256 - y.val + p) % W256 := by
  unfold wSub; dsimp only
  rw [subModp_val]
  have := W4.val_lt hx
  rcases sub4_cases hx hy (c := 0) (by norm_num) with ⟨h0, h1, h2⟩ | ⟨h0, h1, h2⟩
  · rw [h0, if_neg (by norm_num), h2, if_pos (by omega)]; omega
  · rw [h0, if_pos rfl, h2, if_neg (by omega)]; rfl

theorem or4_eq_zero (a b c d : ℕ) : a ||| b ||| c ||| d = 0 ↔ a = 0 ∧ b = 0 ∧ c = 0 ∧ d = 0 := by
  rw [Nat.or_eq_zero_iff, Nat.or_eq_zero_iff, Nat.or_eq_zero_iff]; tauto

theorem W4.zero_iff (x : W4) : x.w0 ||| x.w1 ||| x.w2 ||| x.w3 = 0 ↔ x.val = 0 := by
  rw [or4_eq_zero]; unfold W4.val; omega

theorem wNeg_ok {x : W4} (hx : x.Ok) : (wNeg x).Ok := by
  unfold wNeg; split
  · exact hx
  · exact sub4_ok _ _ _

theorem wNeg_val {x : W4} (hx : x.Ok) (hp : x.val ≤ p) :
    (wNeg x).val = if x.val = 0 then 0 else p - x.val := by
  unfold wNeg
  by_cases h : x.val = 0
  · rw [if_pos ((W4.zero_iff x).2 h), if_pos h, h]
  · rw [if_neg (fun h' => h ((W4.zero_iff x).1 h')), if_neg h]
    have hs := sub4_cases (pTbl_ok 1) hx (c := 0) (by norm_num)
    rw [pTbl1_val] at hs
    omega

theorem wShr_val {x : W4} (hx : x.Ok) (n : ℕ) (hn : n = 1 ∨ n = 2) :
    (wShr n x).Ok ∧ (wShr n x).val = x.val / 2 ^ n := by
  obtain ⟨h0, h1, h2, h3⟩ := hx
  rcases hn with rfl | rfl <;>
  · refine ⟨⟨Nat.mod_lt _ (by norm_num), Nat.mod_lt _ (by norm_num), Nat.mod_lt _ (by norm_num), ?_⟩, ?_⟩
    · unfold wShr; dsimp only; omega
    · unfold wShr shrd W4.val; dsimp only; norm_num only; omega

theorem halfTbl_ok (i : ℕ) : (halfTbl i).Ok := by unfold halfTbl; split <;> exact W4.of_ok _
theorem halfTbl_val (i : ℕ) : (halfTbl i).val = if i = 0 then 0 else (p + 1) / 2 := by
  unfold halfTbl
  have := p_eq
  split <;> rw [W4.val_of_lt] <;> omega
theorem quarterTbl_val (i : ℕ) (hi : i < 4) : (quarterTbl i).val = (p + 1) / 4 * i := by
  unfold quarterTbl
  have := p_eq
  split
  · subst i; rw [W4.val_of_lt] <;> norm_num
  · rw [W4.val_of_lt]
    have : (p + 1) / 4 * i ≤ (p + 1) / 4 * 4 := Nat.mul_le_mul_left _ (by omega)
    omega

theorem w0_mod2 {x : W4} : x.w0 % 2 = x.val % 2 := by unfold W4.val; omega
theorem w0_mod4 {x : W4} : x.w0 % 4 = x.val % 4 := by unfold W4.val; omega

theorem wDivBy2_val {x : W4} (hx : x.Ok) (hp : x.val < p) :
    (wDivBy2 x).val < p ∧ 2 * (wDivBy2 x).val = x.val + p * (x.val % 2) := by
  unfold wDivBy2
  rw [wAddNC_val, (wShr_val hx 1 (by simp)).2, halfTbl_val, w0_mod2]
  have := p_eq
  rcases Nat.mod_two_eq_zero_or_one x.val with h | h <;> rw [h]
  · rw [if_pos rfl]; omega
  · rw [if_neg (by norm_num)]; omega

theorem wDivBy4_val {x : W4} (hx : x.Ok) (hp : x.val < p) :
    (wDivBy4 x).val < p ∧ 4 * (wDivBy4 x).val = x.val + p * (x.val % 4) := by
  unfold wDivBy4
  rw [wAddNC_val, (wShr_val hx 2 (by simp)).2, w0_mod4, quarterTbl_val _ (by omega)]
  have := p_eq
  have h4 : x.val % 4 < 4 := Nat.mod_lt _ (by norm_num)
  generalize hm : x.val % 4 = m at *
  rcases (show m = 0 ∨ m = 1 ∨ m = 2 ∨ m = 3 by omega) with rfl | rfl | rfl | rfl <;> omega

theorem dAddNC_ok (x y : W8) : (dAddNC x y).Ok := ⟨add4_ok _ _ _, add4_ok _ _ _⟩
theorem dAddNC_val (x y : W8) : (dAddNC x y).val = (x.val + y.val) % W512 := by
  have h1 := add4_spec x.lo y.lo 0
  have h2 := add4_spec x.hi y.hi (add4 x.lo y.lo 0).2
  have h3 := W8.val_lt (dAddNC_ok x y)
  unfold dAddNC W8.val at *; dsimp only at *
  omega

theorem dSubNC_ok (x y : W8) : (dSubNC x y).Ok := ⟨sub4_ok _ _ _, sub4_ok _ _ _⟩
theorem dSubNC_val {x y : W8} (hx : x.Ok) (hy : y.Ok) (h : y.val ≤ x.val) :
    (dSubNC x y).val = x.val - y.val := by
  have h1 := sub4_spec hx.1 hy.1 (c := 0) (by norm_num)
  have h2 := sub4_spec hx.2 hy.2 (sub4_borrow x.lo y.lo 0)
  have h3 := W8.val_lt (dSubNC_ok x y)
  have := sub4_borrow x.hi y.hi (sub4 x.lo y.lo 0).2
  unfold dSubNC W8.val at *; dsimp only at *
  omega

theorem dAdd_ok (x y : W8) : (dAdd x y).Ok := ⟨add4_ok _ _ _, addModp_ok (add4_ok _ _ _)⟩
theorem dAdd_val {x y : W8} (h : x.val + y.val < W512) :
    (dAdd x y).val = if x.val + y.val < p * W256 then x.val + y.val
      else x.val + y.val - p * W256 := by
  have h1 := add4_spec x.lo y.lo 0
  have h2 := add4_spec x.hi y.hi (add4 x.lo y.lo 0).2
  have h3 := W4.val_lt (add4_ok x.lo y.lo 0)
  unfold dAdd W8.val at *; dsimp only at *
  rw [addModp_val (add4_ok _ _ _)]
  have := p_eq
  generalize (add4 x.hi y.hi (add4 x.lo y.lo 0).2) = a at *
  generalize (add4 x.lo y.lo 0) = b at *
  split <;> split <;> omega

theorem dSub_ok (x y : W8) : (dSub x y).Ok := ⟨sub4_ok _ _ _, subModp_ok _ _⟩
theorem dSub_val {x y : W8} (hx : x.Ok) (hy : y.Ok) (h : y.val ≤ x.val + p * W256) :
    (dSub x y).val = if y.val ≤ x.val then x.val - y.val
      else x.val + p * W256 - y.val := by
  have h1 := sub4_spec hx.1 hy.1 (c := 0) (by norm_num)
  have h2 := sub4_spec hx.2 hy.2 (sub4_borrow x.lo y.lo 0)
  have h3 := W4.val_lt (sub4_ok x.lo y.lo 0)
  have h5 := W4.val_lt (sub4_ok x.hi y.hi (sub4 x.lo y.lo 0).2)
  have h4 := sub4_borrow x.hi y.hi (sub4 x.lo y.lo 0).2
  unfold dSub W8.val at *; dsimp only at *
  rw [subModp_val]
  have := p_eq
  generalize (sub4 x.hi y.hi (sub4 x.lo y.lo 0).2) = a at *
  generalize (sub4 x.lo y.lo 0) = b at *
  rcases (show a.2 = 0 ∨ a.2 = 1 by omega) with h0 | h0 <;> rw [h0] at h2 ⊢ <;>
    simp only [if_true, if_false, zero_ne_one] <;> split <;> omega

theorem dNeg_ok (x : W8) : (dNeg x).Ok := ⟨sub4_ok _ _ _, sub4_ok _ _ _⟩
theorem dNeg_val {x : W8} (hx : x.Ok) (h : x.val ≤ p * W256) : (dNeg x).val = p * W256 - x.val := by
  have h1 := sub4_spec (pTbl_ok 0) hx.1 (c := 0) (by norm_num)
  have h2 := sub4_spec (pTbl_ok 1) hx.2 (sub4_borrow (pTbl 0) x.lo 0)
  have h3 := W8.val_lt (dNeg_ok x)
  have h4 := sub4_borrow (pTbl 1) x.hi (sub4 (pTbl 0) x.lo 0).2
  rw [pTbl1_val] at h2
  rw [pTbl_val 0 (by norm_num)] at h1
  have := p_eq
  unfold dNeg W8.val at *; dsimp only at *
  omega

theorem pNTbl2 : (pNTbl 2).lo = ⟨0, 0, 0, (pNTbl 2).lo.w3⟩ ∧ (pNTbl 2).val = p * (W256 / 4) := by
  have : pNTbl 2 = W8.of (p * (W256 / 4)) := by
    unfold pNTbl; rfl
  rw [this]
  constructor
  · decide +kernel
  · rw [W8.val_of_lt]; have := p_eq; omega

theorem pNTbl_ok (h : ℕ) : (pNTbl h).Ok := W8.of_ok _

theorem dSubOpt1_ok (x y : W8) : (dSubOpt1 x y).Ok := ⟨sub4_ok _ _ _, sub4_ok _ _ _⟩

theorem dSubOpt1_val {x y : W8} (hx : x.Ok) (hy : y.Ok) (h : y.val ≤ x.val + p * (W256 / 4))
    (h' : x.val + p * (W256 / 4) - y.val < W512) :
    (dSubOpt1 x y).val = x.val + p * (W256 / 4) - y.val := by
  obtain ⟨⟨hx0, hx1, hx2, hx3⟩, hxh⟩ := hx
  obtain ⟨hl, hv⟩ := pNTbl2
  have ha := adc_spec x.lo.w3 (pNTbl 2).lo.w3 0
  have hal := adc_lt x.lo.w3 (pNTbl 2).lo.w3 0
  have hb := add4_spec x.hi (pNTbl 2).hi (adc x.lo.w3 (pNTbl 2).lo.w3 0).2
  have hok := add4_ok x.hi (pNTbl 2).hi (adc x.lo.w3 (pNTbl 2).lo.w3 0).2
  have hlv : (pNTbl 2).lo.val = B64 * (B64 * (B64 * (pNTbl 2).lo.w3)) := by
    rw [hl]; unfold W4.val; dsimp only; omega
  unfold W8.val at hv
  rw [hlv] at hv
  have hres := W8.val_lt (dSubOpt1_ok x y)
  unfold dSubOpt1 at *
  unfold W8.val at *
  dsimp only at *
  generalize (pNTbl 2).lo.w3 = n3 at *
  generalize adc x.lo.w3 n3 0 = t at *
  generalize add4 x.hi (pNTbl 2).hi t.2 = hh at *
  have h1 := sub4_spec (x := ⟨x.lo.w0, x.lo.w1, x.lo.w2, t.1⟩) (y := y.lo) (c := 0)
    ⟨hx0, hx1, hx2, hal⟩ hy.1 (by norm_num)
  have h2 := sub4_spec hok hy.2 (sub4_borrow ⟨x.lo.w0, x.lo.w1, x.lo.w2, t.1⟩ y.lo 0)
  have hbb := sub4_borrow hh.1 y.hi (sub4 ⟨x.lo.w0, x.lo.w1, x.lo.w2, t.1⟩ y.lo 0).2
  generalize sub4 hh.1 y.hi (sub4 ⟨x.lo.w0, x.lo.w1, x.lo.w2, t.1⟩ y.lo 0).2 = s2 at *
  generalize sub4 ⟨x.lo.w0, x.lo.w1, x.lo.w2, t.1⟩ y.lo 0 = s1 at *
  have hxl : x.lo.val = x.lo.w0 + B64 * (x.lo.w1 + B64 * (x.lo.w2 + B64 * x.lo.w3)) := rfl
  rw [hxl] at *
  unfold W4.val at h1; dsimp only at h1
  have := p_eq
  unfold W4.val at *
  omega

end Verif.Fp
