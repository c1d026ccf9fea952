import Verif.Snark.Raw
import Verif.Snark.DblLemmas
import Verif.Snark.Ring

/-! The `G2` element denoted by a pair of raw buffers, and the SNARK `Fp2`/`Fp2Dbl` routines in these
terms. -/

set_option linter.unusedSimpArgs false

namespace Verif

/-- both components canonical (SNARK build) -/
def R2.SCan (x : R2) : Prop := x.a < Snark.p ∧ x.b < Snark.p
instance (x : R2) : Decidable x.SCan := by unfold R2.SCan; infer_instance
/-- the element denoted by a (possibly unreduced) pair of 256-bit buffers -/
noncomputable def R2.sden (x : R2) : Snark.G2 := ⟨Snark.residue x.a, Snark.residue x.b⟩
/-- the element denoted by a pair of 512-bit buffers -/
noncomputable def R2.sdenD (x : R2) : Snark.G2 := ⟨Snark.residueD x.a, Snark.residueD x.b⟩
/-- reduced double values -/
def R2.SRed (x : R2) : Prop := x.a < Snark.pN ∧ x.b < Snark.pN
/-- components below 2p -/
def R2.SLt2 (x : R2) : Prop := x.a < 2 * Snark.p ∧ x.b < 2 * Snark.p

theorem R2.sden_a (x : R2) : x.sden.a = Snark.residue x.a := rfl
theorem R2.sden_b (x : R2) : x.sden.b = Snark.residue x.b := rfl
theorem R2.sdenD_a (x : R2) : x.sdenD.a = Snark.residueD x.a := rfl
theorem R2.sdenD_b (x : R2) : x.sdenD.b = Snark.residueD x.b := rfl

theorem R2.SCan.lt2 {x : R2} (h : x.SCan) : x.SLt2 := ⟨by have := h.1; omega, by have := h.2; omega⟩

namespace Snark
open Verif.Fp (addNC dblMul dblSubNC dblAddNC subNC subNC_val)

theorem sden_inj {x y : R2} (hx : x.SCan) (hy : y.SCan) (h : x.sden = y.sden) : x = y := by
  have h1 := residue_inj hx.1 hy.1 (congrArg G2.a h)
  have h2 := residue_inj hx.2 hy.2 (congrArg G2.b h)
  cases x; cases y; simp_all

namespace S2

theorem add_den {x y : R2} (hx : x.SCan) (hy : y.SCan) :
    (add x y).SCan ∧ (add x y).sden = x.sden + y.sden :=
  ⟨⟨add_lt hx.1 hy.1, add_lt hx.2 hy.2⟩,
    G2.ext (residue_add hx.1 hy.1) (residue_add hx.2 hy.2)⟩

theorem sub_den {x y : R2} (hx : x.SCan) (hy : y.SCan) :
    (sub x y).SCan ∧ (sub x y).sden = x.sden - y.sden :=
  ⟨⟨sub_lt hx.1 hy.1, sub_lt hx.2 hy.2⟩,
    G2.ext (residue_sub hx.1 hy.1) (residue_sub hx.2 hy.2)⟩

theorem neg_den {x : R2} (hx : x.SCan) : (neg x).SCan ∧ (neg x).sden = -x.sden :=
  ⟨⟨neg_lt hx.1, neg_lt hx.2⟩, G2.ext (residue_neg hx.1) (residue_neg hx.2)⟩

theorem divBy2_den {x : R2} (hx : x.SCan) : (divBy2 x).SCan ∧ 2 * (divBy2 x).sden = x.sden := by
  refine ⟨⟨(divBy2_spec hx.1).1, (divBy2_spec hx.2).1⟩, ?_⟩
  have h2 := two_ne
  rw [two_mul]
  refine G2.ext ?_ ?_
  · show residue (Snark.divBy2 x.a) + residue (Snark.divBy2 x.a) = residue x.a
    rw [residue_divBy2 hx.1]; field_simp; ring
  · show residue (Snark.divBy2 x.b) + residue (Snark.divBy2 x.b) = residue x.b
    rw [residue_divBy2 hx.2]; field_simp; ring

theorem divBy4_den {x : R2} (hx : x.SCan) : (divBy4 x).SCan ∧ 4 * (divBy4 x).sden = x.sden := by
  refine ⟨⟨(divBy4_spec hx.1).1, (divBy4_spec hx.2).1⟩, ?_⟩
  have h4 : (4 : ZMod p) ≠ 0 := by
    rw [show (4 : ZMod p) = 2 * 2 by norm_num]; exact mul_ne_zero two_ne two_ne
  rw [show (4 : G2) = 1 + 1 + 1 + 1 by norm_num]
  simp only [add_mul, one_mul]
  refine G2.ext ?_ ?_
  · show residue (Snark.divBy4 x.a) + residue (Snark.divBy4 x.a) + residue (Snark.divBy4 x.a) +
      residue (Snark.divBy4 x.a) = residue x.a
    rw [residue_divBy4 hx.1]; field_simp; ring
  · show residue (Snark.divBy4 x.b) + residue (Snark.divBy4 x.b) + residue (Snark.divBy4 x.b) +
      residue (Snark.divBy4 x.b) = residue x.b
    rw [residue_divBy4 hx.2]; field_simp; ring

theorem mulFp0_den {x : R2} {y : ℕ} (hx : x.SCan) (hy : y < p) :
    (mulFp0 x y).SCan ∧ (mulFp0 x y).sden = x.sden * ⟨residue y, 0⟩ := by
  refine ⟨⟨mul_lt hx.1 hy, mul_lt hx.2 hy⟩, G2.ext ?_ ?_⟩
  · show residue (Snark.mul x.a y) = _
    rw [residue_mul hx.1 hy, G2.mul_a]; simp [R2.sden]
  · show residue (Snark.mul x.b y) = _
    rw [residue_mul hx.2 hy, G2.mul_b]; simp [R2.sden]

theorem addNC_val {x y : R2} (hx : x.SCan) (hy : y.SCan) :
    addNC x y = ⟨x.a + y.a, x.b + y.b⟩ := by
  obtain ⟨h1, h2⟩ := hx
  obtain ⟨h3, h4⟩ := hy
  unfold addNC; rw [anc (by omega), anc (by omega)]

theorem addNC_den {x y : R2} (hx : x.SCan) (hy : y.SCan) :
    (addNC x y).SLt2 ∧ (addNC x y).sden = x.sden + y.sden := by
  rw [addNC_val hx hy]
  obtain ⟨h1, h2⟩ := hx
  obtain ⟨h3, h4⟩ := hy
  exact ⟨⟨by show x.a + y.a < _; omega, by show x.b + y.b < _; omega⟩,
    G2.ext (residue_plus _ _) (residue_plus _ _)⟩

theorem mul_den {x y : R2} (hx : x.SCan) (hy : y.SCan) :
    (mul x y).SCan ∧ (mul x y).sden = x.sden * y.sden := by
  obtain ⟨hxa, hxb⟩ := hx
  obtain ⟨hya, hyb⟩ := hy
  have hq := pN_qN
  have h1 := prod_lt hxa hya
  have h2 := prod_lt hxb hyb
  have h3 := prod_lt hxa hyb
  have h4 := prod_lt hxb hya
  unfold mul
  dsimp only
  rw [karat (by omega) (by omega) (by omega) (by omega), dmul (x := x.a) (by omega) (by omega),
    dmul (x := x.b) (by omega) (by omega)]
  obtain ⟨h5, h6⟩ := dsub (x := x.a * y.a) (y := x.b * y.b) (by omega) (by omega)
  obtain ⟨h7, h8⟩ := dmod h5
  obtain ⟨h9, h10⟩ := dmod (x := x.a * y.b + x.b * y.a) (by omega)
  refine ⟨⟨h7, h9⟩, G2.ext ?_ ?_⟩
  · rw [R2.sden_a, h8, h6, residueD_mul, residueD_mul]; rfl
  · rw [R2.sden_b, h10, residueD_add, residueD_mul, residueD_mul]; rfl

theorem dSquare_den {x : R2} (hx : x.SCan) : (dSquare x).SRed ∧ (dSquare x).sdenD = x.sden * x.sden := by
  obtain ⟨hxa, hxb⟩ := hx
  have h4 := p_lt_W
  unfold dSquare
  dsimp only
  rw [pTbl1_val, anc (x := x.b) (y := x.b) (by omega), anc (x := x.a) (y := p) (by omega),
    anc (x := x.a) (y := x.b) (by omega), subNC_val (by omega) (by omega),
    dmul (by omega) (by omega), dmul (by omega) (by omega)]
  refine ⟨⟨prod_lt2 (by omega) (by omega), prod_lt2 (by omega) (by omega)⟩, G2.ext ?_ ?_⟩
  · rw [R2.sdenD_a, residueD_mul, residue_plus, residue_minus (by omega), residue_p, G2.mul_a]
    simp only [R2.sden]; ring
  · rw [R2.sdenD_b, residueD_mul, residue_plus, G2.mul_b]
    simp only [R2.sden]; ring

theorem square_den {x : R2} (hx : x.SCan) : (square x).SCan ∧ (square x).sden = x.sden * x.sden := by
  obtain ⟨hxa, hxb⟩ := hx
  have h4 := p_lt_W
  have h5 := add_lt hxb hxb
  have h6 := add_lt hxa hxb
  unfold square
  dsimp only
  rw [pTbl1_val, anc (x := x.a) (y := p) (by omega), subNC_val (by omega) (by omega),
    dmul (by omega) (by omega), dmul (by omega) (by omega)]
  obtain ⟨h7, h8⟩ := dmod (x := (x.a + p - x.b) * Snark.add x.a x.b) (prod_lt2 (by omega) (by omega))
  obtain ⟨h9, h10⟩ := dmod (x := Snark.add x.b x.b * x.a) (prod_lt2 (by omega) (by omega))
  refine ⟨⟨h7, h9⟩, G2.ext ?_ ?_⟩
  · rw [R2.sden_a, h8, residueD_mul, residue_add hxa hxb, residue_minus (by omega), residue_p, G2.mul_a]
    simp only [R2.sden]; ring
  · rw [R2.sden_b, h10, residueD_mul, residue_add hxb hxb, G2.mul_b]
    simp only [R2.sden]; ring

theorem squareC_den {x : R2} (hx : x.SCan) :
    (squareC x).SCan ∧ (squareC x).sden = x.sden * x.sden := by
  obtain ⟨hxa, hxb⟩ := hx
  have h5 := add_lt hxb hxb
  have h6 := add_lt hxa hxb
  have h7 := sub_lt hxa hxb
  refine ⟨⟨mul_lt h6 h7, mul_lt h5 hxa⟩, G2.ext ?_ ?_⟩
  · show residue (Snark.mul (Snark.add x.a x.b) (Snark.sub x.a x.b)) = _
    rw [residue_mul h6 h7, residue_add hxa hxb, residue_sub hxa hxb, G2.mul_a]
    simp only [R2.sden]; ring
  · show residue (Snark.mul (Snark.add x.b x.b) x.a) = _
    rw [residue_mul h5 hxa, residue_add hxb hxb, G2.mul_b]
    simp only [R2.sden]; ring

theorem mulXiC_den {x : R2} (hx : x.SCan) :
    (mulXiC x).SCan ∧ (mulXiC x).sden = G2.xi * x.sden := by
  obtain ⟨ha, hb⟩ := hx
  have a2 := add_lt ha ha
  have a4 := add_lt a2 a2
  have a8 := add_lt a4 a4
  have a9 := add_lt a8 ha
  have b2 := add_lt hb hb
  have b4 := add_lt b2 b2
  have b8 := add_lt b4 b4
  have b9 := add_lt b8 hb
  refine ⟨⟨sub_lt a9 hb, add_lt b9 ha⟩, G2.ext ?_ ?_⟩
  · rw [G2.xi_mul_a, R2.sden_a]
    unfold mulXiC
    dsimp only
    rw [residue_sub a9 hb, residue_add a8 ha, residue_add a4 a4, residue_add a2 a2, residue_add ha ha]
    simp only [R2.sden]; ring
  · rw [G2.xi_mul_b, R2.sden_b]
    unfold mulXiC
    dsimp only
    rw [residue_add b9 ha, residue_add b8 hb, residue_add b4 b4, residue_add b2 b2, residue_add hb hb]
    simp only [R2.sden]; ring

theorem residue_mod (n : ℕ) : residue (n % p) = residue n := by
  unfold residue; rw [cast_mod]

theorem residue_mul9 (n : ℕ) : residue (9 * n) = 9 * residue n := by
  unfold residue; push_cast; ring

/-- one component of the generated multiplication by xi -/
theorem wMulXi_res {x y : ℕ} (hx : x < p) (hy : y < p) (doAdd : Bool) :
    ∃ z, wMulXi (Fp.W4.of x) (Fp.W4.of y) doAdd = .ok z ∧ z.val < p ∧
      residue z.val = if doAdd then 9 * residue x + residue y else 9 * residue x - residue y := by
  obtain ⟨-, z, e, -, hv⟩ := wMulXi_spec (Fp.W4.of_ok x) (Fp.W4.of_ok y) doAdd
    (by rw [Fp.W4.val_of_lt (lt_W hx)]; exact hx) (by rw [Fp.W4.val_of_lt (lt_W hy)]; exact hy)
  rw [Fp.W4.val_of_lt (lt_W hx), Fp.W4.val_of_lt (lt_W hy)] at hv
  refine ⟨z, e, by rw [hv]; exact Nat.mod_lt _ p_pos, ?_⟩
  rw [hv, residue_mod]
  unfold xiNum
  cases doAdd
  · simp only [Bool.false_eq_true, if_false]
    rw [residue_minus (by omega), residue_p, residue_mul9]
  · simp only [if_true]
    rw [residue_plus, residue_mul9]

theorem mulXi_den {x : R2} (hx : x.SCan) :
    ∃ z, mulXi x = .ok z ∧ z.SCan ∧ z.sden = G2.xi * x.sden := by
  obtain ⟨a, ea, la, ra⟩ := wMulXi_res hx.1 hx.2 false
  obtain ⟨b, eb, lb, rb⟩ := wMulXi_res hx.2 hx.1 true
  refine ⟨⟨a.val, b.val⟩, ?_, ⟨la, lb⟩, G2.ext ?_ ?_⟩
  · unfold mulXi; rw [ea, Res.bind_ok, eb, Res.bind_ok]; rfl
  · rw [G2.xi_mul_a]; exact ra
  · rw [G2.xi_mul_b]; exact rb

/-- the generated and the portable multiplication by xi store the same words -/
theorem mulXi_eq {x : R2} (hx : x.SCan) : mulXi x = .ok (mulXiC x) := by
  obtain ⟨z, e, hz, hd⟩ := mulXi_den hx
  obtain ⟨c, d⟩ := mulXiC_den hx
  rw [e, sden_inj hz c (hd.trans d.symm)]

theorem dAdd_den {x y : R2} (hx : x.SRed) (hy : y.SRed) :
    (dAdd x y).SRed ∧ (dAdd x y).sdenD = x.sdenD + y.sdenD := by
  obtain ⟨h1, h2⟩ := dadd hx.1 hy.1
  obtain ⟨h3, h4⟩ := dadd hx.2 hy.2
  exact ⟨⟨h1, h3⟩, G2.ext h2 h4⟩

theorem dSub_den {x y : R2} (hx : x.SRed) (hy : y.a ≤ pN ∧ y.b ≤ pN) :
    (dSub x y).SRed ∧ (dSub x y).sdenD = x.sdenD - y.sdenD := by
  obtain ⟨h1, h2⟩ := dsub hx.1 hy.1
  obtain ⟨h3, h4⟩ := dsub hx.2 hy.2
  exact ⟨⟨h1, h3⟩, G2.ext h2 h4⟩

theorem dMul9_spec {x : ℕ} (hx : x < pN) : dMul9 x < pN ∧ residueD (dMul9 x) = 9 * residueD x := by
  obtain ⟨a2, r2⟩ := dadd hx hx
  obtain ⟨a4, r4⟩ := dadd a2 a2
  obtain ⟨a8, r8⟩ := dadd a4 a4
  obtain ⟨a9, r9⟩ := dadd a8 hx
  refine ⟨a9, ?_⟩
  show residueD (Snark.dblAdd _ _) = _
  rw [r9, r8, r4, r2]; ring

theorem dMulXi_den {x : R2} (hx : x.SRed) :
    (dMulXi x).SRed ∧ (dMulXi x).sdenD = G2.xi * x.sdenD := by
  obtain ⟨a, ra⟩ := dMul9_spec hx.1
  obtain ⟨b, rb⟩ := dMul9_spec hx.2
  obtain ⟨h1, h2⟩ := dsub a hx.2.le
  obtain ⟨h3, h4⟩ := dadd b hx.1
  refine ⟨⟨h1, h3⟩, G2.ext ?_ ?_⟩
  · rw [G2.xi_mul_a, R2.sdenD_a]; exact h2.trans (by rw [ra]; rfl)
  · rw [G2.xi_mul_b, R2.sdenD_b]; exact h4.trans (by rw [rb]; rfl)

theorem dMod_den {x : R2} (hx : x.SRed) : (dMod x).SCan ∧ (dMod x).sden = x.sdenD := by
  obtain ⟨h1, h2⟩ := dmod hx.1
  obtain ⟨h3, h4⟩ := dmod hx.2
  exact ⟨⟨h1, h3⟩, G2.ext h2 h4⟩

/-- exact value of `mulOpt2` on operands below 2p -/
theorem mulOpt2_val {x y : R2} (hx : x.SLt2) (hy : y.SLt2) :
    mulOpt2 x y = ⟨Snark.dblSub (x.a * y.a) (x.b * y.b), x.a * y.b + x.b * y.a⟩ := by
  obtain ⟨h1, h2⟩ := hx
  obtain ⟨h3, h4⟩ := hy
  unfold mulOpt2
  dsimp only
  rw [karat h1 h2 h3 h4, dmul (x := x.a) (by omega) (by omega), dmul (x := x.b) (by omega) (by omega)]

theorem prod_denD {x y : R2} {za : ℕ} (h : residueD za = residueD (x.a * y.a) - residueD (x.b * y.b)) :
    (⟨za, x.a * y.b + x.b * y.a⟩ : R2).sdenD = x.sden * y.sden := by
  refine G2.ext ?_ ?_
  · rw [G2.mul_a, R2.sdenD_a]; exact h.trans (by rw [residueD_mul, residueD_mul]; rfl)
  · rw [G2.mul_b, R2.sdenD_b]
    show residueD _ = _
    rw [residueD_add, residueD_mul, residueD_mul]; rfl

theorem mulOpt2_den {x y : R2} (hx : x.SCan) (hy : y.SCan) :
    (mulOpt2 x y).SRed ∧ (mulOpt2 x y).sdenD = x.sden * y.sden := by
  rw [mulOpt2_val hx.lt2 hy.lt2]
  have hq := pN_qN
  have h1 := prod_lt hx.1 hy.1
  have h2 := prod_lt hx.2 hy.2
  have h3 := prod_lt hx.1 hy.2
  have h4 := prod_lt hx.2 hy.1
  obtain ⟨h5, h6⟩ := dsub (x := x.a * y.a) (y := x.b * y.b) (by omega) (by omega)
  exact ⟨⟨h5, by show x.a * y.b + x.b * y.a < _; omega⟩, prod_denD h6⟩

theorem mulOpt1_val {x y : R2} (hx : x.SCan) (hy : y.SCan) :
    mulOpt1 x y = ⟨x.a * y.a + qN - x.b * y.b, x.a * y.b + x.b * y.a⟩ := by
  obtain ⟨h1, h2⟩ := hx
  obtain ⟨h3, h4⟩ := hy
  have hq := pN_qN
  have h5 := prod_lt h1 h3
  have h6 := prod_lt h2 h4
  unfold mulOpt1
  dsimp only
  rw [karat (by omega) (by omega) (by omega) (by omega), dmul (x := x.a) (by omega) (by omega),
    dmul (x := x.b) (by omega) (by omega), (dsubOpt1 (by omega) (by omega)).1]

theorem mulOpt1_den {x y : R2} (hx : x.SCan) (hy : y.SCan) :
    (mulOpt1 x y).SRed ∧ (mulOpt1 x y).sdenD = x.sden * y.sden := by
  rw [mulOpt1_val hx hy]
  have hq := pN_qN
  have h1 := prod_lt hx.1 hy.1
  have h2 := prod_lt hx.2 hy.2
  have h3 := prod_lt hx.1 hy.2
  have h4 := prod_lt hx.2 hy.1
  refine ⟨⟨by show x.a * y.a + qN - x.b * y.b < _; omega, by show x.a * y.b + x.b * y.a < _; omega⟩, prod_denD ?_⟩
  rw [residueD_sub (by omega), residueD_qN]

end S2
end Snark
end Verif
