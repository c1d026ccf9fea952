import Verif.Tower.Sparse
import Verif.Ec.Model

/-!
The line-evaluation routines of the Miller loop (bn.h:1001-1147, zm2.cpp:3012-3213) on typed values, and
their values in the field.  The raw transcriptions are in `Tower/Raw.lean`.
-/

namespace Verif
open Fp

/-- components below 3p -/
def R2.Lt3 (x : R2) : Prop := x.a < 3 * p ∧ x.b < 3 * p

theorem R2.Canon.lt3 {x : R2} (h : x.Canon) : x.Lt3 := ⟨by have := h.1; omega, by have := h.2; omega⟩

namespace Fp2

theorem addNC3_den {x : R2} (hx : x.Canon) :
    (addNC (addNC x x) x).Lt3 ∧ (addNC (addNC x x) x).den = 3 * x.den := by
  obtain ⟨h1, h2⟩ := hx
  have e : addNC (addNC x x) x = ⟨x.a + x.a + x.a, x.b + x.b + x.b⟩ := by
    unfold addNC
    rw [anc (x := x.a) (by omega), anc (x := x.b) (by omega)]
    dsimp only
    rw [anc (by omega), anc (by omega)]
  rw [e]
  refine ⟨⟨by dsimp only; omega, by dsimp only; omega⟩, ?_⟩
  have h3 : (3 : F2) = 1 + 1 + 1 := by norm_num
  rw [h3, add_mul, add_mul, one_mul]
  refine F2.ext ?_ ?_
  · simp only [F2.add_a, R2.den_a, residue_plus, Fe.ofZ_add]
  · simp only [F2.add_b, R2.den_b, residue_plus, Fe.ofZ_add]

/-- The square of a canonical element is small enough for its triple to be subtracted in one step:
27 p / 4 < 2^256. -/
theorem dSquare_three {x : R2} (hx : x.Canon) : 3 * (dSquare x).a ≤ pN ∧ 3 * (dSquare x).b ≤ pN := by
  obtain ⟨h1, h2⟩ := hx
  have h4 := p_lt_W
  unfold dSquare
  dsimp only
  rw [pTbl1_val, anc (x := x.b) (y := x.b) (by omega), anc (x := x.a) (y := p) (by omega),
    anc (x := x.a) (y := x.b) (by omega), subNC_val (by omega) (by omega),
    dmul (by omega) (by omega), dmul (by omega) (by omega)]
  have hp : 27 * (p * p) ≤ 4 * pN := by
    unfold pN; rw [p_eq]; norm_num
  generalize pN = N at hp ⊢
  generalize hc : x.a + p - x.b = c
  have hc' : (x.a + x.b) + c = 2 * x.a + p := by omega
  have hm : 4 * ((x.a + x.b) * c) ≤ (2 * x.a + p) * (2 * x.a + p) := by
    rw [← hc']
    nlinarith [sq_nonneg ((x.a + x.b : ℤ) - c)]
  have h5 : (2 * x.a + p) * (2 * x.a + p) ≤ (3 * p) * (3 * p) := Nat.mul_le_mul (by omega) (by omega)
  have h6 : (x.b + x.b) * x.a ≤ (2 * p) * p := Nat.mul_le_mul (by omega) (by omega)
  constructor
  · nlinarith
  · nlinarith

/-- subtraction of three times a double value -/
theorem dSub3_den {x y : R2} (hx : x.RedD) (hy : 3 * y.a ≤ pN ∧ 3 * y.b ≤ pN) :
    (dSub x (dAddNC (dAddNC y y) y)).RedD ∧ (dSub x (dAddNC (dAddNC y y) y)).denD = x.denD - 3 * y.denD := by
  have hw := pN_w
  have e : dAddNC (dAddNC y y) y = ⟨y.a + y.a + y.a, y.b + y.b + y.b⟩ := by
    unfold dAddNC
    rw [daddNC (x := y.a) (by omega), daddNC (x := y.b) (by omega)]
    dsimp only
    rw [daddNC (by omega), daddNC (by omega)]
  rw [e]
  obtain ⟨h1, h2⟩ := dSub_den (y := ⟨y.a + y.a + y.a, y.b + y.b + y.b⟩) hx
    ⟨by dsimp only; omega, by dsimp only; omega⟩
  refine ⟨h1, h2.trans ?_⟩
  refine congrArg (x.denD - ·) ?_
  have h3 : (3 : F2) = 1 + 1 + 1 := by norm_num
  rw [h3, add_mul, add_mul, one_mul]
  refine F2.ext ?_ ?_
  · simp only [F2.add_a, R2.denD_a, residueD_add, Fe.ofZ_add]
  · simp only [F2.add_b, R2.denD_b, residueD_add, Fe.ofZ_add]

theorem divBy2_den {x : R2} (hx : x.Canon) : (divBy2 x).Canon ∧ (divBy2 x).den * 2 = x.den := by
  have h : (divBy2 x).Canon := ⟨(divBy2_spec hx.1).1, (divBy2_spec hx.2).1⟩
  refine ⟨h, ?_⟩
  rw [← F2.ofRaw_eq h, ← F2.ofRaw_eq hx]
  exact F2.divBy2_mul (F2.ofRaw x hx)

/-- multiplication by 1 - u as done in the doubling step -/
theorem mulOneSubU_den {x : R2} (hx : x.Canon) :
    (⟨Fp.add x.a x.b, Fp.sub x.b x.a⟩ : R2).Canon ∧
    (⟨Fp.add x.a x.b, Fp.sub x.b x.a⟩ : R2).den = ⟨1, -1⟩ * x.den := by
  refine ⟨⟨add_lt hx.1 hx.2, sub_lt hx.2 hx.1⟩, F2.ext ?_ ?_⟩
  · rw [F2.mul_a, R2.den_a, residue_add hx.1 hx.2, Fe.ofZ_add, R2.den_a, R2.den_b]; ring
  · rw [F2.mul_b, R2.den_b, residue_sub hx.2 hx.1, Fe.ofZ_sub, R2.den_a, R2.den_b]; ring

theorem mulFp0_den {x : R2} (hx : x.Lt3) (y : Fe) :
    (mulFp0 x y.n).Canon ∧ (mulFp0 x y.n).den = x.den * F2.ofFe y := by
  have h4 := p_lt_W
  have aux : ∀ z : ℕ, z < 3 * p → Fp.mul z y.n < p ∧ residue (Fp.mul z y.n) = residue z * residue y.n := by
    intro z hz
    have h1 : z + p ≤ W256 := by omega
    have h2 : y.n < W256 := lt_W y.lt
    have h3 : z * y.n < p * W256 := by
      calc z * y.n ≤ W256 * y.n := Nat.mul_le_mul_right _ (by omega)
        _ < W256 * p := Nat.mul_lt_mul_of_pos_left y.lt (by norm_num)
        _ = p * W256 := mul_comm _ _
    exact ⟨(mul_wide h1 h2 h3).1, residue_mul_wide h1 h2 h3⟩
  obtain ⟨a1, a2⟩ := aux x.a hx.1
  obtain ⟨b1, b2⟩ := aux x.b hx.2
  refine ⟨⟨a1, b1⟩, ?_⟩
  have hy : Fe.ofZ (residue y.n) = y := Fe.ofZ_toZ y
  refine F2.ext ?_ ?_
  · rw [F2.mul_a]
    show Fe.ofZ (residue (Fp.mul x.a y.n)) = _
    rw [a2, Fe.ofZ_mul, hy, R2.den_a]; simp [F2.ofFe]
  · rw [F2.mul_b]
    show Fe.ofZ (residue (Fp.mul x.b y.n)) = _
    rw [b2, Fe.ofZ_mul, hy, R2.den_b]; simp [F2.ofFe]

end Fp2

theorem mulFp6_24_canon {l : R6} (ha : l.a.Canon) (hb : l.b.Canon) (hc : l.c.Lt3) (x y : Fe) :
    (mulFp6_24_Fp_01 l x.n y.n).Canon := by
  have h1 := (Fp2.mulFp0_den hb.lt3 y).1
  have h2 := (Fp2.mulFp0_den hc x).1
  unfold mulFp6_24_Fp_01
  generalize Fp2.mulFp0 l.b y.n = u at h1 ⊢
  generalize Fp2.mulFp0 l.c x.n = v at h2 ⊢
  exact ⟨ha, h1, h2⟩

/-- the twist constant 1 - u = 2/ξ as it appears in the doubling step -/
def F2.bTw : F2 := ⟨1, -1⟩

theorem dblLine_den {X Y Z : R2} (hX : X.Canon) (hY : Y.Canon) (hZ : Z.Canon) :
    let e := pointDblLineEvalWithoutP X Y Z
    (e.l.a.Canon ∧ e.l.b.Canon ∧ e.l.c.Lt3) ∧ (e.x.Canon ∧ e.y.Canon ∧ e.z.Canon) ∧
    (e.l.a.den = F2.xi * (3 * F2.bTw * Z.den ^ 2 - Y.den ^ 2) ∧ e.l.b.den = -(2 * Y.den * Z.den) ∧
      e.l.c.den = 3 * X.den ^ 2) ∧
    (2 * e.x.den = (Y.den ^ 2 - 9 * F2.bTw * Z.den ^ 2) * X.den * Y.den ∧
     4 * e.y.den = (Y.den ^ 2 + 9 * F2.bTw * Z.den ^ 2) ^ 2 - 108 * F2.bTw ^ 2 * Z.den ^ 4 ∧
     e.z.den = 2 * Y.den ^ 3 * Z.den) := by
  intro e
  obtain ⟨c1, d1⟩ := Fp2.square_den hZ
  obtain ⟨c2, d2⟩ := Fp2.mul_den hX hY
  obtain ⟨c3, d3⟩ := Fp2.square_den hY
  obtain ⟨c4, d4⟩ := Fp2.add_den c1 c1
  obtain ⟨c5, d5⟩ := Fp2.divBy2_den c2
  obtain ⟨c6, d6⟩ := Fp2.add_den c1 c3
  obtain ⟨c7, d7⟩ := Fp2.add_den c1 c4
  obtain ⟨c8, d8⟩ := Fp2.mulOneSubU_den c7
  obtain ⟨c9, d9⟩ := Fp2.square_den hX
  obtain ⟨c10, d10⟩ := Fp2.add_den c8 c8
  obtain ⟨c11, d11⟩ := Fp2.add_den c10 c8
  obtain ⟨c12, d12⟩ := Fp2.addNC3_den c9
  obtain ⟨c13, d13⟩ := Fp2.sub_den c3 c11
  obtain ⟨c14, d14⟩ := Fp2.add_den c11 c3
  obtain ⟨c15, d15⟩ := Fp2.mul_den c13 c5
  obtain ⟨c16, d16⟩ := Fp2.divBy2_den c14
  obtain ⟨c17, d17⟩ := Fp2.dSquare_den c16
  obtain ⟨c18, d18⟩ := Fp2.dSquare_den c8
  obtain ⟨c19, d19⟩ := Fp2.add_den hY hZ
  obtain ⟨c20, d20⟩ := Fp2.square_den c19
  obtain ⟨c21, d21⟩ := Fp2.sub_den c20 c6
  obtain ⟨c22, d22⟩ := Fp2.dSub3_den c17 (Fp2.dSquare_three c8)
  obtain ⟨c23, d23⟩ := Fp2.dMod_den c22
  obtain ⟨c24, d24⟩ := Fp2.mul_den c3 c21
  obtain ⟨c25, d25⟩ := Fp2.sub_den c8 c3
  obtain ⟨c26, d26⟩ := Fp2.mulXi_den c25
  obtain ⟨c27, d27⟩ := Fp2.neg_den c21
  have t2 : (⟨Fp.add (Fp2.add (Fp2.square Z) (Fp2.add (Fp2.square Z) (Fp2.square Z))).a
      (Fp2.add (Fp2.square Z) (Fp2.add (Fp2.square Z) (Fp2.square Z))).b,
      Fp.sub (Fp2.add (Fp2.square Z) (Fp2.add (Fp2.square Z) (Fp2.square Z))).b
      (Fp2.add (Fp2.square Z) (Fp2.add (Fp2.square Z) (Fp2.square Z))).a⟩ : R2).den
      = 3 * F2.bTw * Z.den ^ 2 := by
    rw [d8, d7, d4, d1]; unfold F2.bTw; ring
  have y2 : (Fp2.square Y).den = Y.den ^ 2 := by rw [d3]; ring
  have t3 : (Fp2.sub (Fp2.square (Fp2.add Y Z)) (Fp2.add (Fp2.square Z) (Fp2.square Y))).den = 2 * Y.den * Z.den := by
    rw [d21, d20, d19, d6, d1, d3]; ring
  refine ⟨⟨c26, c27, c12⟩, ⟨c15, c23, c24⟩, ⟨?_, ?_, ?_⟩, ?_, ?_, ?_⟩
  · refine d26.trans ?_
    rw [d25, t2, y2]
  · refine d27.trans ?_
    rw [t3]
  · refine d12.trans ?_
    rw [d9]; ring
  · have hx : e.x.den = _ := d15
    rw [hx, d13]
    have e5 := d5
    rw [d11, d10, t2, y2]
    rw [d2] at e5
    linear_combination (Y.den ^ 2 - 9 * F2.bTw * Z.den ^ 2) * e5
  · have hy : e.y.den = _ := d23.trans d22
    rw [hy, d17, d18, t2]
    have e16 := d16
    rw [d14, d11, d10, t2, y2] at e16
    generalize (Fp2.divBy2 _).den = s at e16 ⊢
    linear_combination (2 * s + (Y.den ^ 2 + 9 * F2.bTw * Z.den ^ 2)) * e16
  · have hz : e.z.den = _ := d24
    rw [hz, t3, y2]; ring

theorem addLine_den {X Y Z Qx Qy : R2} (hX : X.Canon) (hY : Y.Canon) (hZ : Z.Canon) (hx : Qx.Canon)
    (hy : Qy.Canon) :
    let e := pointAddLineEvalWithoutP X Y Z Qx Qy
    let A := X.den - Z.den * Qx.den
    let B := Y.den - Z.den * Qy.den
    let t := B ^ 2 * Z.den + A ^ 3 - 2 * (A ^ 2 * X.den)
    (e.l.a.Canon ∧ e.l.b.Canon ∧ e.l.c.Canon) ∧ (e.x.Canon ∧ e.y.Canon ∧ e.z.Canon) ∧
    (e.l.a.den = F2.xi * (B * Qx.den - A * Qy.den) ∧ e.l.b.den = A ∧ e.l.c.den = -B) ∧
    (e.x.den = A * t ∧ e.y.den = B * (A ^ 2 * X.den - t) - A ^ 3 * Y.den ∧ e.z.den = A ^ 3 * Z.den) := by
  intro e A B t
  obtain ⟨c1, d1⟩ := Fp2.mul_den hZ hx
  obtain ⟨c2, d2⟩ := Fp2.mul_den hZ hy
  obtain ⟨c3, d3⟩ := Fp2.sub_den hX c1
  obtain ⟨c4, d4⟩ := Fp2.sub_den hY c2
  obtain ⟨c5, d5⟩ := Fp2.square_den c3
  obtain ⟨c6, d6⟩ := Fp2.mul_den c5 hX
  obtain ⟨c7, d7⟩ := Fp2.square_den c4
  obtain ⟨c8, d8⟩ := Fp2.mul_den c5 c3
  obtain ⟨c9, d9⟩ := Fp2.mul_den c7 hZ
  obtain ⟨c10, d10⟩ := Fp2.add_den c9 c8
  obtain ⟨c11, d11⟩ := Fp2.sub_den c10 c6
  obtain ⟨c12, d12⟩ := Fp2.sub_den c11 c6
  obtain ⟨c13, d13⟩ := Fp2.sub_den c6 c12
  obtain ⟨c14, d14⟩ := Fp2.mulOpt1_den c4 c13
  obtain ⟨c15, d15⟩ := Fp2.mulOpt1_den c8 hY
  obtain ⟨c16, d16⟩ := Fp2.dSub_den c14 (Fp12.redD_le c15)
  obtain ⟨c17, d17⟩ := Fp2.dMod_den c16
  obtain ⟨c18, d18⟩ := Fp2.mul_den c3 c12
  obtain ⟨c19, d19⟩ := Fp2.mul_den c8 hZ
  obtain ⟨c20, d20⟩ := Fp2.neg_den c4
  obtain ⟨c21, d21⟩ := Fp2.mulOpt1_den c4 hx
  obtain ⟨c22, d22⟩ := Fp2.mulOpt1_den c3 hy
  obtain ⟨c23, d23⟩ := Fp2.dSub_den c21 (Fp12.redD_le c22)
  obtain ⟨c24, d24⟩ := Fp2.dMod_den c23
  obtain ⟨c25, d25⟩ := Fp2.mulXi_den c24
  rw [d1] at d3
  rw [d2] at d4
  refine ⟨⟨c25, c3, c20⟩, ⟨c18, c17, c19⟩, ⟨?_, d3, ?_⟩, ?_, ?_, ?_⟩
  · refine d25.trans ?_
    rw [d24, d23, d21, d22, d3, d4]
  · refine d20.trans ?_
    rw [d4]
  · refine d18.trans ?_
    rw [d12, d11, d10, d9, d8, d7, d6, d5, d3, d4]
    ring
  · refine (d17.trans d16).trans ?_
    rw [d14, d15, d13, d12, d11, d10, d9, d8, d7, d6, d5, d3, d4]
    ring
  · refine d19.trans ?_
    rw [d8, d5, d3]
    ring

end Verif
