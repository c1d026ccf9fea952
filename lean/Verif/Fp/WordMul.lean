import Verif.Fp.WordLemmas

/-! Numeric meaning of the multiplication and Montgomery reduction routines. -/

namespace Verif.Fp

theorem mul4x1_spec {y : W4} {x : ℕ} (hy : y.Ok) (hx : x < B64) :
    (mul4x1 y x).1.Ok ∧ (mul4x1 y x).2 < B64 ∧
    (mul4x1 y x).1.val + W256 * (mul4x1 y x).2 = x * y.val := by
  have hv := W4.val_lt hy
  have hxy : x * y.val < B64 * W256 := Nat.mul_lt_mul'' hx hv
  have e : x * y.val = x * y.w0 + B64 * (x * y.w1 + B64 * (x * y.w2 + B64 * (x * y.w3))) := by
    unfold W4.val; ring
  refine ⟨⟨Nat.mod_lt _ (by norm_num), adc_lt _ _ _, adc_lt _ _ _, adc_lt _ _ _⟩,
    Nat.mod_lt _ (by norm_num), ?_⟩
  unfold mul4x1; dsimp only
  rw [e] at hxy ⊢
  generalize x * y.w0 = p0 at *
  generalize x * y.w1 = p1 at *
  generalize x * y.w2 = p2 at *
  generalize x * y.w3 = p3 at *
  have h1 := adc_spec (p0 / B64) (p1 % B64) 0
  have h2 := adc_spec (p1 / B64) (p2 % B64) (adc (p0 / B64) (p1 % B64) 0).2
  have h3 := adc_spec (p2 / B64) (p3 % B64)
    (adc (p1 / B64) (p2 % B64) (adc (p0 / B64) (p1 % B64) 0).2).2
  generalize adc (p2 / B64) (p3 % B64)
    (adc (p1 / B64) (p2 % B64) (adc (p0 / B64) (p1 % B64) 0).2).2 = a3 at *
  generalize adc (p1 / B64) (p2 % B64) (adc (p0 / B64) (p1 % B64) 0).2 = a2 at *
  generalize adc (p0 / B64) (p1 % B64) 0 = a1 at *
  unfold W4.val; dsimp only
  omega

theorem pp_spec : (1 + pp * p) % B64 = 0 := by decide +kernel

theorem q_spec (w : ℕ) : ∃ k, w + w * pp % B64 * p = B64 * k := by
  have h : (w + w * pp % B64 * p) % B64 = 0 := by
    have : (w + w * pp % B64 * p) % B64 = (w * (1 + pp * p)) % B64 := by
      have e : w * (1 + pp * p) = w + w * pp * p := by ring
      rw [e, Nat.add_mod, Nat.mul_mod (w * pp % B64) p B64, Nat.mod_mod,
        ← Nat.mul_mod, ← Nat.add_mod]
    rw [this, Nat.mul_mod, pp_spec, Nat.mul_zero, Nat.zero_mod]
  exact ⟨_, (Nat.mul_div_cancel' (Nat.dvd_of_mod_eq_zero h)).symm⟩

/-- Numeric effect of one Montgomery round on the five-word accumulator. -/
theorem montgomery1_spec {c x : W4} {c4 y : ℕ} (hc4 : c4 < B64) (hx : x.Ok) (hy : y < B64)
    (hb : c.val + W256 * c4 + x.val * y < B64 * W256) :
    (montgomery1 c c4 x y).1.Ok ∧ (montgomery1 c c4 x y).2 < B64 ∧
    ∃ q, q < B64 ∧ B64 * ((montgomery1 c c4 x y).1.val + W256 * (montgomery1 c c4 x y).2)
      = c.val + W256 * c4 + x.val * y + q * p := by
  obtain ⟨mok, mlt, mv⟩ := mul4x1_spec hx hy
  rw [Nat.mul_comm x.val y] at hb ⊢
  rw [← mv] at hb ⊢
  unfold montgomery1; dsimp only
  generalize mul4x1 x y = m at *
  have sv := add4_spec c m.1 0
  have sok := add4_ok c m.1 0
  generalize add4 c m.1 0 = s at *
  have s4v : (c4 + m.2 + s.2) % B64 = c4 + m.2 + s.2 := by
    apply Nat.mod_eq_of_lt; omega
  rw [s4v]
  have qlt : s.1.w0 * pp % B64 < B64 := Nat.mod_lt _ (by norm_num)
  obtain ⟨k, hk⟩ := q_spec s.1.w0
  generalize s.1.w0 * pp % B64 = q at *
  obtain ⟨nok, nlt, nv⟩ := mul4x1_spec (pTbl_ok 1) qlt
  rw [pTbl1_val] at nv
  generalize mul4x1 (pTbl 1) q = n at *
  have tv := add4_spec s.1 n.1 0
  have tok := add4_ok s.1 n.1 0
  generalize add4 s.1 n.1 0 = t at *
  have t4v := adc_spec (c4 + m.2 + s.2) n.2 t.2
  have t4l := adc_lt (c4 + m.2 + s.2) n.2 t.2
  generalize adc (c4 + m.2 + s.2) n.2 t.2 = t4 at *
  have hqp : q * p < B64 * p := Nat.mul_lt_mul_of_pos_right qlt (by have := p_eq; omega)
  have hp := p_eq
  obtain ⟨tok0, tok1, tok2, tok3⟩ := tok
  have hw0 : t.1.w0 = 0 := by
    clear mok hx nok sok
    have h1 : s.1.val = s.1.w0 + B64 * (s.1.w1 + B64 * (s.1.w2 + B64 * s.1.w3)) := rfl
    have h2 : t.1.val = t.1.w0 + B64 * (t.1.w1 + B64 * (t.1.w2 + B64 * t.1.w3)) := rfl
    generalize q * p = qp at *
    generalize s.1.w1 + B64 * (s.1.w2 + B64 * s.1.w3) = s' at *
    generalize t.1.w1 + B64 * (t.1.w2 + B64 * t.1.w3) = t' at *
    omega
  have hc1 : t4.2 < B64 := by omega
  rw [hw0, Nat.zero_add, Nat.mod_eq_of_lt hc1]
  refine ⟨⟨tok1, tok2, tok3, t4l⟩, hc1, q, qlt, ?_⟩
  have h2 : t.1.val = t.1.w0 + B64 * (t.1.w1 + B64 * (t.1.w2 + B64 * t.1.w3)) := rfl
  unfold W4.val at *
  dsimp only at *
  generalize q * p = qp at *
  omega

theorem montgomery1First_eq (x : W4) (y : ℕ) (hx : x.Ok) (hy : y < B64) :
    montgomery1First x y = montgomery1 ⟨0, 0, 0, 0⟩ 0 x y := by
  obtain ⟨⟨h0, h1, h2, h3⟩, hl, -⟩ := mul4x1_spec hx hy
  unfold montgomery1First montgomery1
  have : add4 ⟨0, 0, 0, 0⟩ (mul4x1 x y).1 0 = ((mul4x1 x y).1, 0) := by
    unfold add4 adc; dsimp only
    generalize mul4x1 x y = m at *
    obtain ⟨⟨m0, m1, m2, m3⟩, m4⟩ := m
    dsimp only at *
    simp only [Nat.zero_add, Nat.add_zero, Nat.div_eq_of_lt h0, Nat.div_eq_of_lt h1,
      Nat.div_eq_of_lt h2, Nat.div_eq_of_lt h3, Nat.mod_eq_of_lt h0, Nat.mod_eq_of_lt h1,
      Nat.mod_eq_of_lt h2, Nat.mod_eq_of_lt h3]
  dsimp only
  rw [this]; dsimp only
  rw [Nat.zero_add, Nat.add_zero, Nat.mod_eq_of_lt hl]

theorem mont_bound {C X y q C' : ℕ} (hC : C < X + p) (hy : y < B64) (hq : q < B64)
    (h : B64 * C' = C + X * y + q * p) : C' < X + p := by
  have h1 : X * y ≤ X * (B64 - 1) := Nat.mul_le_mul_left _ (by omega)
  have h2 : q * p ≤ (B64 - 1) * p := Nat.mul_le_mul_right _ (by omega)
  generalize X * y = a at *
  generalize q * p = b at *
  omega

theorem mont_nowrap {C X y : ℕ} (hC : C < X + p) (hy : y < B64) (hX : X + p ≤ W256) :
    C + X * y < B64 * W256 := by
  have h1 : X * y ≤ X * (B64 - 1) := Nat.mul_le_mul_left _ (by omega)
  have := p_eq
  generalize X * y = a at *
  omega

/-- Result of the conditional subtraction: canonical and congruent. -/
theorem cond_sub {c : ℕ} (h : c < 2 * p) :
    (if c < p then c else c - p) < p ∧ (if c < p then c else c - p) % p = c % p := by
  split
  · exact ⟨by assumption, rfl⟩
  · rename_i hc
    refine ⟨by omega, ?_⟩
    rw [Nat.mod_eq_sub_mod (by omega : c ≥ p)]

/-- `Fp_mul`: for x + p ≤ 2^256 and x*y < p * 2^256 (in particular canonical operands) the result
is the canonical number congruent to x * y / 2^256. -/
theorem wMul_spec {x y : W4} (hx : x.Ok) (hy : y.Ok) (hX : x.val + p ≤ W256)
    (hXY : x.val * y.val < p * W256) :
    (wMul x y).Ok ∧ (wMul x y).val < p ∧ W256 * (wMul x y).val % p = x.val * y.val % p := by
  obtain ⟨hy0, hy1, hy2, hy3⟩ := hy
  have hp := p_eq
  have hyv : y.val = y.w0 + B64 * (y.w1 + B64 * (y.w2 + B64 * y.w3)) := rfl
  unfold wMul
  rw [montgomery1First_eq x y.w0 hx hy0]
  dsimp only
  have z0 : (⟨0, 0, 0, 0⟩ : W4).val + W256 * 0 = 0 := rfl
  obtain ⟨ok1, l1, q1, hq1, e1⟩ := montgomery1_spec (c := ⟨0, 0, 0, 0⟩) (c4 := 0)
    (by norm_num) hx hy0
    (mont_nowrap (X := x.val) (by rw [z0]; omega) hy0 hX)
  rw [z0] at e1
  have b1 := mont_bound (show 0 < x.val + p by omega) hy0 hq1 e1
  generalize montgomery1 ⟨0, 0, 0, 0⟩ 0 x y.w0 = c1 at *
  obtain ⟨ok2, l2, q2, hq2, e2⟩ := montgomery1_spec l1 hx hy1 (mont_nowrap b1 hy1 hX)
  have b2 := mont_bound b1 hy1 hq2 e2
  generalize montgomery1 c1.1 c1.2 x y.w1 = c2 at *
  obtain ⟨ok3, l3, q3, hq3, e3⟩ := montgomery1_spec l2 hx hy2 (mont_nowrap b2 hy2 hX)
  have b3 := mont_bound b2 hy2 hq3 e3
  generalize montgomery1 c2.1 c2.2 x y.w2 = c3 at *
  obtain ⟨ok4, l4, q4, hq4, e4⟩ := montgomery1_spec l3 hx hy3 (mont_nowrap b3 hy3 hX)
  have b4 := mont_bound b3 hy3 hq4 e4
  generalize montgomery1 c3.1 c3.2 x y.w3 = c4 at *
  have hc4 : c4.2 = 0 := by omega
  rw [hc4, Nat.mul_zero, Nat.add_zero] at e4
  have key : W256 * c4.1.val
      = x.val * y.val + (q1 + B64 * (q2 + B64 * (q3 + B64 * q4))) * p := by
    have e : x.val * y.val + (q1 + B64 * (q2 + B64 * (q3 + B64 * q4))) * p
      = (x.val * y.w0 + q1 * p) + B64 * ((x.val * y.w1 + q2 * p) + B64 *
        ((x.val * y.w2 + q3 * p) + B64 * (x.val * y.w3 + q4 * p))) := by rw [hyv]; ring
    rw [e]
    rw [Nat.add_assoc] at e1 e2 e3 e4
    generalize x.val * y.w0 + q1 * p = a1 at *
    generalize x.val * y.w1 + q2 * p = a2 at *
    generalize x.val * y.w2 + q3 * p = a3 at *
    generalize x.val * y.w3 + q4 * p = a4 at *
    omega
  have hQ : (q1 + B64 * (q2 + B64 * (q3 + B64 * q4))) < W256 := by omega
  have hQp : (q1 + B64 * (q2 + B64 * (q3 + B64 * q4))) * p < W256 * p :=
    Nat.mul_lt_mul_of_pos_right hQ (by omega)
  have h2p : c4.1.val < 2 * p := by
    generalize (q1 + B64 * (q2 + B64 * (q3 + B64 * q4))) * p = a at *
    generalize x.val * y.val = b at *
    omega
  refine ⟨addModp_ok ok4, ?_⟩
  rw [addModp_val ok4]
  obtain ⟨r1, r2⟩ := cond_sub h2p
  refine ⟨r1, ?_⟩
  rw [Nat.mul_mod, r2, ← Nat.mul_mod, key, Nat.add_mul_mod_self_right]

theorem mul4x4_spec {x y : W4} (hx : x.Ok) (hy : y.Ok) :
    (mul4x4 x y).Ok ∧ (mul4x4 x y).val = x.val * y.val := by
  obtain ⟨hx0, hx1, hx2, hx3⟩ := hx
  have hxv : x.val = x.w0 + B64 * (x.w1 + B64 * (x.w2 + B64 * x.w3)) := rfl
  have hyl := W4.val_lt hy
  obtain ⟨m0ok, m0l, m0v⟩ := mul4x1_spec hy hx0
  obtain ⟨m1ok, m1l, m1v⟩ := mul4x1_spec hy hx1
  obtain ⟨m2ok, m2l, m2v⟩ := mul4x1_spec hy hx2
  obtain ⟨m3ok, m3l, m3v⟩ := mul4x1_spec hy hx3
  have e : x.val * y.val = x.w0 * y.val + B64 * (x.w1 * y.val + B64 * (x.w2 * y.val
      + B64 * (x.w3 * y.val))) := by rw [hxv]; ring
  have bnd : ∀ w, w < B64 → w * y.val ≤ (B64 - 1) * (W256 - 1) := fun w hw =>
    Nat.mul_le_mul (by omega) (by omega)
  have p0 := bnd _ hx0
  have p1 := bnd _ hx1
  have p2 := bnd _ hx2
  have p3 := bnd _ hx3
  rw [e]
  unfold mul4x4; dsimp only
  generalize mul4x1 y x.w0 = m0 at *
  generalize mul4x1 y x.w1 = m1 at *
  generalize mul4x1 y x.w2 = m2 at *
  generalize mul4x1 y x.w3 = m3 at *
  generalize x.w0 * y.val = P0 at *
  generalize x.w1 * y.val = P1 at *
  generalize x.w2 * y.val = P2 at *
  generalize x.w3 * y.val = P3 at *
  clear e bnd hxv hyl
  have s1v := add4_spec ⟨m0.1.w1, m0.1.w2, m0.1.w3, m0.2⟩ m1.1 0
  have s1ok := add4_ok ⟨m0.1.w1, m0.1.w2, m0.1.w3, m0.2⟩ m1.1 0
  generalize add4 ⟨m0.1.w1, m0.1.w2, m0.1.w3, m0.2⟩ m1.1 0 = s1 at *
  have a0v : m0.1.w0 + B64 * (⟨m0.1.w1, m0.1.w2, m0.1.w3, m0.2⟩ : W4).val = P0 := by
    rw [← m0v]; unfold W4.val; dsimp only; omega
  generalize (⟨m0.1.w1, m0.1.w2, m0.1.w3, m0.2⟩ : W4).val = A0 at *
  have d1 : (m1.2 + s1.2) % B64 = m1.2 + s1.2 := by apply Nat.mod_eq_of_lt; omega
  rw [d1]
  have s2v := add4_spec ⟨s1.1.w1, s1.1.w2, s1.1.w3, m1.2 + s1.2⟩ m2.1 0
  have s2ok := add4_ok ⟨s1.1.w1, s1.1.w2, s1.1.w3, m1.2 + s1.2⟩ m2.1 0
  generalize add4 ⟨s1.1.w1, s1.1.w2, s1.1.w3, m1.2 + s1.2⟩ m2.1 0 = s2 at *
  have a1v : s1.1.w0 + B64 * (⟨s1.1.w1, s1.1.w2, s1.1.w3, m1.2 + s1.2⟩ : W4).val = A0 + P1 := by
    have : s1.1.val = s1.1.w0 + B64 * (s1.1.w1 + B64 * (s1.1.w2 + B64 * s1.1.w3)) := rfl
    unfold W4.val; dsimp only; omega
  generalize (⟨s1.1.w1, s1.1.w2, s1.1.w3, m1.2 + s1.2⟩ : W4).val = A1 at *
  have d2 : (m2.2 + s2.2) % B64 = m2.2 + s2.2 := by apply Nat.mod_eq_of_lt; omega
  rw [d2]
  have s3v := add4_spec ⟨s2.1.w1, s2.1.w2, s2.1.w3, m2.2 + s2.2⟩ m3.1 0
  have s3ok := add4_ok ⟨s2.1.w1, s2.1.w2, s2.1.w3, m2.2 + s2.2⟩ m3.1 0
  generalize add4 ⟨s2.1.w1, s2.1.w2, s2.1.w3, m2.2 + s2.2⟩ m3.1 0 = s3 at *
  have a2v : s2.1.w0 + B64 * (⟨s2.1.w1, s2.1.w2, s2.1.w3, m2.2 + s2.2⟩ : W4).val = A1 + P2 := by
    have : s2.1.val = s2.1.w0 + B64 * (s2.1.w1 + B64 * (s2.1.w2 + B64 * s2.1.w3)) := rfl
    unfold W4.val; dsimp only; omega
  generalize (⟨s2.1.w1, s2.1.w2, s2.1.w3, m2.2 + s2.2⟩ : W4).val = A2 at *
  have d3 : m3.2 + s3.2 < B64 := by omega
  rw [Nat.mod_eq_of_lt d3]
  refine ⟨⟨⟨m0ok.1, s1ok.1, s2ok.1, s3ok.1⟩, ⟨s3ok.2.1, s3ok.2.2.1, s3ok.2.2.2, d3⟩⟩, ?_⟩
  have : s3.1.val = s3.1.w0 + B64 * (s3.1.w1 + B64 * (s3.1.w2 + B64 * s3.1.w3)) := rfl
  unfold W8.val; dsimp only
  unfold W4.val; dsimp only
  omega

/-- One round of `mont_mod`. -/
theorem modRound_spec {c : W4} {h0 : ℕ} (hc : c.Ok) (hh : h0 < B64) :
    (modRound c h0).1.w0 = 0 ∧ (modRound c h0).1.Ok ∧ (modRound c h0).2.1 < B64 ∧
    (modRound c h0).2.2 ≤ 1 ∧
    ∃ q, q < B64 ∧ (modRound c h0).1.val + W256 * ((modRound c h0).2.1 + B64 * (modRound c h0).2.2)
      = c.val + W256 * h0 + q * p := by
  unfold modRound; dsimp only
  have qlt : c.w0 * pp % B64 < B64 := Nat.mod_lt _ (by norm_num)
  obtain ⟨k, hk⟩ := q_spec c.w0
  generalize c.w0 * pp % B64 = q at *
  obtain ⟨nok, nlt, nv⟩ := mul4x1_spec (pTbl_ok 1) qlt
  rw [pTbl1_val] at nv
  generalize mul4x1 (pTbl 1) q = n at *
  have tv := add4_spec c n.1 0
  have tok := add4_ok c n.1 0
  have tc := add4_carry hc nok (c := 0) (by norm_num)
  generalize add4 c n.1 0 = t at *
  have uv := adc_spec h0 n.2 t.2
  have ul := adc_lt h0 n.2 t.2
  have uc := adc_carry hh nlt tc
  generalize adc h0 n.2 t.2 = u at *
  obtain ⟨tok0, tok1, tok2, tok3⟩ := tok
  refine ⟨?_, ⟨tok0, tok1, tok2, tok3⟩, ul, uc, q, qlt, by omega⟩
  have h1 : c.val = c.w0 + B64 * (c.w1 + B64 * (c.w2 + B64 * c.w3)) := rfl
  have h2 : t.1.val = t.1.w0 + B64 * (t.1.w1 + B64 * (t.1.w2 + B64 * t.1.w3)) := rfl
  generalize q * p = qp at *
  generalize c.w1 + B64 * (c.w2 + B64 * c.w3) = s' at *
  generalize t.1.w1 + B64 * (t.1.w2 + B64 * t.1.w3) = t' at *
  omega

/-- `mont_mod`: for X < p * 2^256 the result is the canonical number congruent to X / 2^256. -/
theorem wMod_spec {x : W8} (hx : x.Ok) (hX : x.val < p * W256) :
    (wMod x).Ok ∧ (wMod x).val < p ∧ W256 * (wMod x).val % p = x.val % p := by
  obtain ⟨hlo, h0, h1, h2, h3⟩ := hx
  have hp := p_eq
  unfold wMod; dsimp only
  obtain ⟨z1, o1, l1, c1, q1, hq1, e1⟩ := modRound_spec hlo h0
  generalize modRound x.lo x.hi.w0 = r1 at *
  have a1v := adc_spec x.hi.w1 0 r1.2.2
  have a1l := adc_lt x.hi.w1 0 r1.2.2
  generalize adc x.hi.w1 0 r1.2.2 = a1 at *
  have a2v := adc_spec x.hi.w2 0 a1.2
  have a2l := adc_lt x.hi.w2 0 a1.2
  generalize adc x.hi.w2 0 a1.2 = a2 at *
  have a3v := adc_spec x.hi.w3 0 a2.2
  have a3l := adc_lt x.hi.w3 0 a2.2
  generalize adc x.hi.w3 0 a2.2 = a3 at *
  obtain ⟨z2, o2, l2, c2, q2, hq2, e2⟩ := modRound_spec
    (c := ⟨r1.1.w1, r1.1.w2, r1.1.w3, r1.2.1⟩) ⟨o1.2.1, o1.2.2.1, o1.2.2.2, l1⟩ a1l
  generalize modRound ⟨r1.1.w1, r1.1.w2, r1.1.w3, r1.2.1⟩ a1.1 = r2 at *
  have b2v := adc_spec a2.1 0 r2.2.2
  have b2l := adc_lt a2.1 0 r2.2.2
  generalize adc a2.1 0 r2.2.2 = b2 at *
  have b3v := adc_spec a3.1 0 b2.2
  have b3l := adc_lt a3.1 0 b2.2
  generalize adc a3.1 0 b2.2 = b3 at *
  obtain ⟨z3, o3, l3, c3, q3, hq3, e3⟩ := modRound_spec
    (c := ⟨r2.1.w1, r2.1.w2, r2.1.w3, r2.2.1⟩) ⟨o2.2.1, o2.2.2.1, o2.2.2.2, l2⟩ b2l
  generalize modRound ⟨r2.1.w1, r2.1.w2, r2.1.w3, r2.2.1⟩ b2.1 = r3 at *
  have d3v := adc_spec b3.1 0 r3.2.2
  have d3l := adc_lt b3.1 0 r3.2.2
  generalize adc b3.1 0 r3.2.2 = d3 at *
  obtain ⟨z4, o4, l4, c4, q4, hq4, e4⟩ := modRound_spec
    (c := ⟨r3.1.w1, r3.1.w2, r3.1.w3, r3.2.1⟩) ⟨o3.2.1, o3.2.2.1, o3.2.2.2, l3⟩ d3l
  generalize modRound ⟨r3.1.w1, r3.1.w2, r3.1.w3, r3.2.1⟩ d3.1 = r4 at *
  have okf : (⟨r4.1.w1, r4.1.w2, r4.1.w3, r4.2.1⟩ : W4).Ok := ⟨o4.2.1, o4.2.2.1, o4.2.2.2, l4⟩
  -- split the four value equations
  have bq : ∀ q, q < B64 → q * p ≤ (B64 - 1) * p := fun q hq => Nat.mul_le_mul_right _ (by omega)
  have k1 := bq _ hq1
  have k2 := bq _ hq2
  have k3 := bq _ hq3
  have k4 := bq _ hq4
  have xv : x.val = x.lo.val + W256 * x.hi.val := rfl
  have hv : x.hi.val = x.hi.w0 + B64 * (x.hi.w1 + B64 * (x.hi.w2 + B64 * x.hi.w3)) := rfl
  have f1 : r1.1.val = r1.1.w0 + B64 * (r1.1.w1 + B64 * (r1.1.w2 + B64 * r1.1.w3)) := rfl
  have f2 : r2.1.val = r2.1.w0 + B64 * (r2.1.w1 + B64 * (r2.1.w2 + B64 * r2.1.w3)) := rfl
  have f3 : r3.1.val = r3.1.w0 + B64 * (r3.1.w1 + B64 * (r3.1.w2 + B64 * r3.1.w3)) := rfl
  have f4 : r4.1.val = r4.1.w0 + B64 * (r4.1.w1 + B64 * (r4.1.w2 + B64 * r4.1.w3)) := rfl
  have g1 : (⟨r1.1.w1, r1.1.w2, r1.1.w3, r1.2.1⟩ : W4).val
    = r1.1.w1 + B64 * (r1.1.w2 + B64 * (r1.1.w3 + B64 * r1.2.1)) := rfl
  have g2 : (⟨r2.1.w1, r2.1.w2, r2.1.w3, r2.2.1⟩ : W4).val
    = r2.1.w1 + B64 * (r2.1.w2 + B64 * (r2.1.w3 + B64 * r2.2.1)) := rfl
  have g3 : (⟨r3.1.w1, r3.1.w2, r3.1.w3, r3.2.1⟩ : W4).val
    = r3.1.w1 + B64 * (r3.1.w2 + B64 * (r3.1.w3 + B64 * r3.2.1)) := rfl
  have g4 : (⟨r4.1.w1, r4.1.w2, r4.1.w3, r4.2.1⟩ : W4).val
    = r4.1.w1 + B64 * (r4.1.w2 + B64 * (r4.1.w3 + B64 * r4.2.1)) := rfl
  rw [g1] at e2
  rw [g2] at e3
  rw [g3] at e4
  rw [f1, z1] at e1
  rw [f2, z2] at e2
  rw [f3, z3] at e3
  rw [f4, z4] at e4
  have hQ : (q1 + B64 * (q2 + B64 * (q3 + B64 * q4))) < W256 := by omega
  have hQp : (q1 + B64 * (q2 + B64 * (q3 + B64 * q4))) * p < W256 * p :=
    Nat.mul_lt_mul_of_pos_right hQ (by omega)
  have hQe : (q1 + B64 * (q2 + B64 * (q3 + B64 * q4))) * p
    = q1 * p + B64 * (q2 * p + B64 * (q3 * p + B64 * (q4 * p))) := by ring
  clear hQ o1 o2 o3 o4 hlo z1 z2 z3 z4 f1 f2 f3 f4 bq g1 g2 g3
  have key : W256 * (⟨r4.1.w1, r4.1.w2, r4.1.w3, r4.2.1⟩ : W4).val
      = x.val + (q1 + B64 * (q2 + B64 * (q3 + B64 * q4))) * p ∧
      (⟨r4.1.w1, r4.1.w2, r4.1.w3, r4.2.1⟩ : W4).val < 2 * p := by
    rw [g4]
    rw [hQe] at hQp ⊢
    generalize q1 * p = t1 at *
    generalize q2 * p = t2 at *
    generalize q3 * p = t3 at *
    generalize q4 * p = t4 at *
    omega
  obtain ⟨key, h2p⟩ := key
  refine ⟨addModp_ok okf, ?_⟩
  rw [addModp_val okf]
  obtain ⟨r1, r2⟩ := cond_sub h2p
  refine ⟨r1, ?_⟩
  rw [Nat.mul_mod, r2, ← Nat.mul_mod, key, Nat.add_mul_mod_self_right]

end Verif.Fp
