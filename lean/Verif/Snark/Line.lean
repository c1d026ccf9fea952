import Verif.Snark.Sparse

/-! The line evaluations of the SNARK build: bounds and values. -/

set_option linter.unusedSimpArgs false

namespace Verif

/-- components below 3p -/
def R2.SLt3 (x : R2) : Prop := x.a < 3 * Snark.p ∧ x.b < 3 * Snark.p
theorem R2.SCan.lt3 {x : R2} (h : x.SCan) : x.SLt3 := ⟨by have := h.1; omega, by have := h.2; omega⟩

namespace Snark
open Verif.Fp (subNC_val)

namespace S2

theorem addNC3_den {x : R2} (hx : x.SCan) :
    (addNC (addNC x x) x).SLt3 ∧ (addNC (addNC x x) x).sden = 3 * x.sden := by
  obtain ⟨h1, h2⟩ := hx
  have e : addNC (addNC x x) x = ⟨x.a + x.a + x.a, x.b + x.b + x.b⟩ := by
    unfold addNC
    rw [anc (x := x.a) (by omega), anc (x := x.b) (by omega)]
    dsimp only
    rw [anc (by omega), anc (by omega)]
  rw [e]
  refine ⟨⟨by dsimp only; omega, by dsimp only; omega⟩, ?_⟩
  have h3 : (3 : G2) = 1 + 1 + 1 := by norm_num
  rw [h3, add_mul, add_mul, one_mul]
  refine G2.ext ?_ ?_
  · simp only [G2.add_a, R2.sden_a, residue_plus]
  · simp only [G2.add_b, R2.sden_b, residue_plus]

/-- Twice the square of a canonical element is below pN (three times is not: 27 p / 4 > 2^256). -/
theorem dSquare_two {x : R2} (hx : x.SCan) : 2 * (dSquare x).a < pN ∧ 2 * (dSquare x).b < pN := by
  obtain ⟨h1, h2⟩ := hx
  have h4 := p_lt_W
  unfold dSquare
  dsimp only
  rw [pTbl1_val, anc (x := x.b) (y := x.b) (by omega), anc (x := x.a) (y := p) (by omega),
    anc (x := x.a) (y := x.b) (by omega), subNC_val (by omega) (by omega),
    dmul (by omega) (by omega), dmul (by omega) (by omega)]
  have hp : 18 * (p * p) < 4 * pN := by
    unfold pN; rw [p_eq]; norm_num
  generalize pN = N at hp ⊢
  generalize hc : x.a + p - x.b = c
  have hc' : (x.a + x.b) + c = 2 * x.a + p := by omega
  have hm : 4 * ((x.a + x.b) * c) ≤ (2 * x.a + p) * (2 * x.a + p) := by
    rw [← hc']
    nlinarith [sq_nonneg ((x.a + x.b : ℤ) - c)]
  have h5 : (2 * x.a + p) * (2 * x.a + p) ≤ (3 * p) * (3 * p) := Nat.mul_le_mul (by omega) (by omega)
  have h6 : (x.b + x.b) * x.a ≤ (2 * p) * p := Nat.mul_le_mul (by omega) (by omega)
  constructor
  · nlinarith
  · nlinarith

/-- three times a double value, the last addition reduced (zm2.cpp:3146-3150) -/
theorem dTriple_den {y : R2} (hy : 2 * y.a < pN ∧ 2 * y.b < pN) :
    (dAdd (dAddNC y y) y).SRed ∧ (dAdd (dAddNC y y) y).sdenD = 3 * y.sdenD := by
  have hw := pN_w
  have e : dAddNC y y = ⟨y.a + y.a, y.b + y.b⟩ := by
    unfold dAddNC
    rw [daddNC (x := y.a) (by omega), daddNC (x := y.b) (by omega)]
  rw [e]
  obtain ⟨h1, h2⟩ := dAdd_den (x := ⟨y.a + y.a, y.b + y.b⟩) (y := y)
    ⟨by dsimp only; omega, by dsimp only; omega⟩ ⟨by omega, by omega⟩
  refine ⟨h1, h2.trans ?_⟩
  have h3 : (3 : G2) = 1 + 1 + 1 := by norm_num
  rw [h3, add_mul, add_mul, one_mul]
  refine G2.ext ?_ ?_
  · simp only [G2.add_a, R2.sdenD_a, residueD_add]
  · simp only [G2.add_b, R2.sdenD_b, residueD_add]

theorem mulFp0_wide {x : R2} {y : ℕ} (hx : x.SLt3) (hy : y < p) :
    (mulFp0 x y).SCan ∧ (mulFp0 x y).sden = x.sden * ⟨residue y, 0⟩ := by
  have aux : ∀ z : ℕ, z < 3 * p → Snark.mul z y < p ∧ residue (Snark.mul z y) = residue z * residue y := by
    intro z hz
    exact mul_lt3 hz hy
  obtain ⟨a1, a2⟩ := aux x.a hx.1
  obtain ⟨b1, b2⟩ := aux x.b hx.2
  refine ⟨⟨a1, b1⟩, G2.ext ?_ ?_⟩
  · show residue (Snark.mul x.a y) = _
    rw [a2, G2.mul_a]; simp [R2.sden]
  · show residue (Snark.mul x.b y) = _
    rw [b2, G2.mul_b]; simp [R2.sden]

end S2

/-- The factor used in the doubling step: 9 - u when the code was generated for b = 82, the value of
`b_invxi` otherwise. -/
noncomputable def beta (b82 : Bool) (binv : R2) : G2 := if b82 then ⟨9, -1⟩ else binv.sden

theorem mulBinv_den {b82 : Bool} {binv t : R2} (hb : binv.SCan) (ht : t.SCan) :
    ∃ z, mulBinv b82 binv t = .ok z ∧ z.SCan ∧ z.sden = beta b82 binv * t.sden := by
  cases b82 with
  | false =>
    obtain ⟨h1, h2⟩ := S2.mul_den ht hb
    exact ⟨_, rfl, h1, by rw [h2]; show _ = binv.sden * _; ring⟩
  | true =>
    obtain ⟨a, ea, la, ra⟩ := S2.wMulXi_res ht.1 ht.2 true
    obtain ⟨b, eb, lb, rb⟩ := S2.wMulXi_res ht.2 ht.1 false
    refine ⟨⟨a.val, b.val⟩, ?_, ⟨la, lb⟩, G2.ext ?_ ?_⟩
    · unfold mulBinv; rw [if_pos rfl, ea, Res.bind_ok, eb, Res.bind_ok]; rfl
    · refine ra.trans ?_
      simp [beta, G2.mul_a, R2.sden]
    · refine rb.trans ?_
      simp [beta, G2.mul_b, R2.sden]; ring

theorem dblLine_den {b82 : Bool} {binv X Y Z : R2} (hb : binv.SCan) (hX : X.SCan) (hY : Y.SCan)
    (hZ : Z.SCan) :
    ∃ e, pointDblLineEvalWithoutP b82 binv X Y Z = .ok e ∧
    (e.l.a.SCan ∧ e.l.b.SCan ∧ e.l.c.SLt3) ∧ (e.x.SCan ∧ e.y.SCan ∧ e.z.SCan) ∧
    (e.l.a.sden = G2.xi * (3 * beta b82 binv * Z.sden ^ 2 - Y.sden ^ 2) ∧
      e.l.b.sden = -(2 * Y.sden * Z.sden) ∧ e.l.c.sden = 3 * X.sden ^ 2) ∧
    (2 * e.x.sden = (Y.sden ^ 2 - 9 * beta b82 binv * Z.sden ^ 2) * X.sden * Y.sden ∧
     4 * e.y.sden = (Y.sden ^ 2 + 9 * beta b82 binv * Z.sden ^ 2) ^ 2
       - 108 * beta b82 binv ^ 2 * Z.sden ^ 4 ∧
     e.z.sden = 2 * Y.sden ^ 3 * Z.sden) := by
  obtain ⟨c1, d1⟩ := S2.square_den hZ
  obtain ⟨c2, d2⟩ := S2.mul_den hX hY
  obtain ⟨c3, d3⟩ := S2.square_den hY
  obtain ⟨c4, d4⟩ := S2.add_den c1 c1
  obtain ⟨c5, d5⟩ := S2.divBy2_den c2
  obtain ⟨c6, d6⟩ := S2.add_den c1 c3
  obtain ⟨c7, d7⟩ := S2.add_den c1 c4
  obtain ⟨t, e8, c8, d8⟩ := mulBinv_den (b82 := b82) hb c7
  obtain ⟨c9, d9⟩ := S2.square_den hX
  obtain ⟨c10, d10⟩ := S2.add_den c8 c8
  obtain ⟨c11, d11⟩ := S2.add_den c10 c8
  obtain ⟨c12, d12⟩ := S2.addNC3_den c9
  obtain ⟨c13, d13⟩ := S2.sub_den c3 c11
  obtain ⟨c14, d14⟩ := S2.add_den c11 c3
  obtain ⟨c15, d15⟩ := S2.mul_den c13 c5
  obtain ⟨c16, d16⟩ := S2.divBy2_den c14
  obtain ⟨c17, d17⟩ := S2.dSquare_den c16
  obtain ⟨c18, d18⟩ := S2.dSquare_den c8
  obtain ⟨c19, d19⟩ := S2.add_den hY hZ
  obtain ⟨c20, d20⟩ := S2.square_den c19
  obtain ⟨c21, d21⟩ := S2.sub_den c20 c6
  obtain ⟨c28, d28⟩ := S2.dTriple_den (S2.dSquare_two c8)
  obtain ⟨c22, d22⟩ := S2.dSub_den c17 (S12.sred_le c28)
  obtain ⟨c23, d23⟩ := S2.dMod_den c22
  obtain ⟨c24, d24⟩ := S2.mul_den c3 c21
  obtain ⟨c25, d25⟩ := S2.sub_den c8 c3
  obtain ⟨la, e26, c26, d26⟩ := S2.mulXi_den c25
  obtain ⟨c27, d27⟩ := S2.neg_den c21
  have t2 : t.sden = 3 * beta b82 binv * Z.sden ^ 2 := by
    rw [d8, d7, d4, d1]; ring
  have y2 : (S2.square Y).sden = Y.sden ^ 2 := by rw [d3]; ring
  have t3 : (S2.sub (S2.square (S2.add Y Z)) (S2.add (S2.square Z) (S2.square Y))).sden =
      2 * Y.sden * Z.sden := by
    rw [d21, d20, d19, d6, d1, d3]; ring
  refine ⟨_, by unfold pointDblLineEvalWithoutP; dsimp only; rw [e8, Res.bind_ok, e26, Res.bind_ok]; rfl,
    ⟨c26, c27, c12⟩, ⟨c15, c23, c24⟩, ⟨?_, ?_, ?_⟩, ?_, ?_, ?_⟩
  · refine d26.trans ?_
    rw [d25, t2, y2]
  · refine d27.trans ?_
    rw [t3]
  · refine d12.trans ?_
    rw [d9]; ring
  · show 2 * (S2.mul _ _).sden = _
    rw [d15, d13]
    have e5 := d5
    rw [d11, d10, t2, y2]
    rw [d2] at e5
    linear_combination (Y.sden ^ 2 - 9 * beta b82 binv * Z.sden ^ 2) * e5
  · show 4 * (S2.dMod _).sden = _
    rw [d23, d22, d17, d28, d18, t2]
    have e16 := d16
    rw [d14, d11, d10, t2, y2] at e16
    generalize (S2.divBy2 _).sden = s at e16 ⊢
    linear_combination (2 * s + (Y.sden ^ 2 + 9 * beta b82 binv * Z.sden ^ 2)) * e16
  · show (S2.mul _ _).sden = _
    rw [d24, t3, y2]; ring

theorem addLine_den {X Y Z Qx Qy : R2} (hX : X.SCan) (hY : Y.SCan) (hZ : Z.SCan) (hx : Qx.SCan)
    (hy : Qy.SCan) :
    let A := X.sden - Z.sden * Qx.sden
    let B := Y.sden - Z.sden * Qy.sden
    let t := B ^ 2 * Z.sden + A ^ 3 - 2 * (A ^ 2 * X.sden)
    ∃ e, pointAddLineEvalWithoutP X Y Z Qx Qy = .ok e ∧
    (e.l.a.SCan ∧ e.l.b.SCan ∧ e.l.c.SCan) ∧ (e.x.SCan ∧ e.y.SCan ∧ e.z.SCan) ∧
    (e.l.a.sden = G2.xi * (B * Qx.sden - A * Qy.sden) ∧ e.l.b.sden = A ∧ e.l.c.sden = -B) ∧
    (e.x.sden = A * t ∧ e.y.sden = B * (A ^ 2 * X.sden - t) - A ^ 3 * Y.sden ∧
      e.z.sden = A ^ 3 * Z.sden) := by
  intro A B t
  obtain ⟨c1, d1⟩ := S2.mul_den hZ hx
  obtain ⟨c2, d2⟩ := S2.mul_den hZ hy
  obtain ⟨c3, d3⟩ := S2.sub_den hX c1
  obtain ⟨c4, d4⟩ := S2.sub_den hY c2
  obtain ⟨c5, d5⟩ := S2.square_den c3
  obtain ⟨c6, d6⟩ := S2.mul_den c5 hX
  obtain ⟨c7, d7⟩ := S2.square_den c4
  obtain ⟨c8, d8⟩ := S2.mul_den c5 c3
  obtain ⟨c9, d9⟩ := S2.mul_den c7 hZ
  obtain ⟨c10, d10⟩ := S2.add_den c9 c8
  obtain ⟨c11, d11⟩ := S2.sub_den c10 c6
  obtain ⟨c12, d12⟩ := S2.sub_den c11 c6
  obtain ⟨c13, d13⟩ := S2.sub_den c6 c12
  obtain ⟨c14, d14⟩ := S2.mulOpt1_den c4 c13
  obtain ⟨c15, d15⟩ := S2.mulOpt1_den c8 hY
  obtain ⟨c16, d16⟩ := S2.dSub_den c14 (S12.sred_le c15)
  obtain ⟨c17, d17⟩ := S2.dMod_den c16
  obtain ⟨c18, d18⟩ := S2.mul_den c3 c12
  obtain ⟨c19, d19⟩ := S2.mul_den c8 hZ
  obtain ⟨c20, d20⟩ := S2.neg_den c4
  obtain ⟨c21, d21⟩ := S2.mulOpt1_den c4 hx
  obtain ⟨c22, d22⟩ := S2.mulOpt1_den c3 hy
  obtain ⟨c23, d23⟩ := S2.dSub_den c21 (S12.sred_le c22)
  obtain ⟨c24, d24⟩ := S2.dMod_den c23
  obtain ⟨la, e25, c25, d25⟩ := S2.mulXi_den c24
  rw [d1] at d3
  rw [d2] at d4
  refine ⟨_, by unfold pointAddLineEvalWithoutP; dsimp only; rw [e25, Res.bind_ok]; rfl,
    ⟨c25, c3, c20⟩, ⟨c18, c17, c19⟩, ⟨?_, d3, ?_⟩, ?_, ?_, ?_⟩
  · refine d25.trans ?_
    rw [d24, d23, d21, d22, d3, d4]
  · refine d20.trans ?_
    rw [d4]
  · refine d18.trans ?_
    rw [d12, d11, d10, d9, d8, d7, d6, d5, d3, d4]
    ring
  · refine (d17.trans d16).trans ?_
    rw [d14, d15, d13, d12, d11, d10, d9, d8, d7, d6, d5, d3, d4]
    ring
  · refine d19.trans ?_
    rw [d8, d5, d3]
    ring

end Snark
end Verif
