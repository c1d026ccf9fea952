import Verif.Snark.Den6

/-! `Fp12::mul` and `Fp12::square` of the SNARK build, under the bounds that make them right. -/

set_option linter.unusedSimpArgs false

namespace Verif

/-- canonical `Fp12` buffers (SNARK build) -/
def R12.SCan (x : R12) : Prop := x.a.SCan ∧ x.b.SCan
instance (x : R12) : Decidable x.SCan := by unfold R12.SCan; infer_instance
/-- the element denoted by raw buffers -/
noncomputable def R12.sden (x : R12) : Snark.G12 := ⟨x.a.sden, x.b.sden⟩

namespace Snark
namespace S12

/-- `Fp12::mul`: right value if the six-product sums of both half products are at most pN. -/
theorem mul_den {x y : R12} (hx : x.SCan) (hy : y.SCan) (ha : cb x.a y.a < pN) (hb : cb x.b y.b < pN) :
    (mul x y).sden = x.sden * y.sden ∧ (mul x y).a.SCan ∧ (mul x y).b.a.SCan ∧ (mul x y).b.b.SCan ∧
      (mul x y).b.c.a < p ∧
      (cb (S6.add x.a x.b) (S6.add y.a y.b) < pN → (mul x y).b.c.b < p) := by
  obtain ⟨a1, a2⟩ := S6.dMul_red hx.1 hy.1 ha
  obtain ⟨b1, b2⟩ := S6.dMul_red hx.2 hy.2 hb
  obtain ⟨c1, c2⟩ := S6.add_den hx.1 hx.2
  obtain ⟨d1, d2⟩ := S6.add_den hy.1 hy.2
  obtain ⟨e1, e2, e3, e4, e5⟩ := S6.dMul_den c1 d1
  have ecb := cb_lt c1 d1
  obtain ⟨f1, f2⟩ := S6.dAdd_den a1 b1
  obtain ⟨h1, h2⟩ := S6.dMulGammaAdd_den b1 a1
  obtain ⟨i1, i2⟩ := S6.dMod_den h1
  -- the subtraction, componentwise because the minuend may exceed pN in one place
  obtain ⟨g1, g2⟩ := S2.dSub_den e1 ⟨f1.1.1.le, f1.1.2.le⟩
  obtain ⟨g3, g4⟩ := S2.dSub_den e2 ⟨f1.2.1.1.le, f1.2.1.2.le⟩
  obtain ⟨g5, g6⟩ := dsub e3 f1.2.2.1.le
  have hw := pN_w
  obtain ⟨g7, g8⟩ := dsub_wide (x := (S6.dMul (S6.add x.a x.b) (S6.add y.a y.b)).c.b)
    (y := (S6.dAdd (S6.dMul x.a y.a) (S6.dMul x.b y.b)).c.b) (by rw [e4]; omega)
    (by have := f1.2.2.2; omega) (by have := f1.2.2.2; omega)
  obtain ⟨j1, j2⟩ := S2.dMod_den g1
  obtain ⟨j3, j4⟩ := S2.dMod_den g3
  obtain ⟨j5, j6⟩ := dmod g5
  obtain ⟨j7, j8⟩ := dmod_wide (x := Snark.dblSub (S6.dMul (S6.add x.a x.b) (S6.add y.a y.b)).c.b
    (S6.dAdd (S6.dMul x.a y.a) (S6.dMul x.b y.b)).c.b) (by
      rcases g7 with ⟨h, _⟩ | ⟨h, _⟩
      · rw [h, e4]; omega
      · rw [h, e4]; rw [e4] at *; omega)
  refine ⟨?_, i1, j1, j3, j5, ?_⟩
  · refine G12.ext ?_ ?_
    · refine i2.trans ?_
      rw [G12.mul_a, h2, a2, b2]; simp only [R12.sden]; ring
    · have e : (mul x y).b.sden = (S6.dMul (S6.add x.a x.b) (S6.add y.a y.b)).sdenD -
          (S6.dAdd (S6.dMul x.a y.a) (S6.dMul x.b y.b)).sdenD :=
        G6.ext (j2.trans g2) (j4.trans g4) (G2.ext (j6.trans g6) (j8.trans g8))
      refine e.trans ?_
      rw [G12.mul_b, f2, e5, c2, d2, a2, b2]; simp only [R12.sden]; ring
  · intro hc
    refine (dmod (x := Snark.dblSub _ _) ?_).1
    rw [e4] at g7 ⊢
    omega

/-- `Fp12::square`: right and canonical if the two six-product sums are below pN. -/
theorem square_den {x : R12} (hx : x.SCan) (h1 : cb x.b x.a < pN)
    (h2 : ∀ t, S6.mulGammaAdd x.b x.a = .ok t → cb (S6.add x.a x.b) t < pN) :
    ∃ z, square x = .ok z ∧ z.SCan ∧ z.sden = x.sden * x.sden := by
  obtain ⟨a1, a2⟩ := S6.add_den hx.1 hx.2
  obtain ⟨t, e, b1, b2⟩ := S6.mulGammaAdd_den hx.2 hx.1
  obtain ⟨c1, c2⟩ := S6.mul_den' hx.2 hx.1 h1
  obtain ⟨d1, d2⟩ := S6.mul_den' a1 b1 (h2 t e)
  obtain ⟨t', e', f1, f2⟩ := S6.mulGammaAdd_den c1 c1
  obtain ⟨g1, g2⟩ := S6.sub_den d1 f1
  obtain ⟨i1, i2⟩ := S6.add_den c1 c1
  refine ⟨⟨S6.sub (S6.mul (S6.add x.a x.b) t) t', S6.add (S6.mul x.b x.a) (S6.mul x.b x.a)⟩, ?_,
    ⟨g1, i1⟩, ?_⟩
  · unfold square; dsimp only
    rw [e, Res.bind_ok, e', Res.bind_ok]; rfl
  · refine G12.ext ?_ ?_
    · refine g2.trans ?_
      rw [G12.mul_a, f2, d2, c2, b2, a2]; simp only [R12.sden]; ring
    · refine i2.trans ?_
      rw [G12.mul_b, c2]; simp only [R12.sden]; ring

end S12
end Snark
end Verif
