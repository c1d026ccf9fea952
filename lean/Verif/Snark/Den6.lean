import Verif.Snark.Den

/-! `Fp6` and `Fp6Dbl` of the SNARK build.  `Fp6Dbl::mul` leaves the sum of six products unreduced in the
last component; with this prime the sum can exceed p * 2^256. -/

set_option linter.unusedSimpArgs false

namespace Verif

/-- canonical `Fp6` buffers (SNARK build) -/
def R6.SCan (x : R6) : Prop := x.a.SCan ∧ x.b.SCan ∧ x.c.SCan
instance (x : R6) : Decidable x.SCan := by unfold R6.SCan; infer_instance
/-- reduced double values -/
def R6.SRed (x : R6) : Prop := x.a.SRed ∧ x.b.SRed ∧ x.c.SRed
/-- the element denoted by raw buffers -/
noncomputable def R6.sden (x : R6) : Snark.G6 := ⟨x.a.sden, x.b.sden, x.c.sden⟩
/-- the element denoted by raw `Dbl` buffers -/
noncomputable def R6.sdenD (x : R6) : Snark.G6 := ⟨x.a.sdenD, x.b.sdenD, x.c.sdenD⟩

namespace Snark

/-- The integer that `Fp6Dbl::mul` leaves in the u-part of the v^2 coefficient: the sum of six products. -/
def cb (x y : R6) : ℕ :=
  x.a.a * y.c.b + x.a.b * y.c.a + (x.b.a * y.b.b + x.b.b * y.b.a) + (x.c.a * y.a.b + x.c.b * y.a.a)

/-- that integer is at most 6p^2 < 1.2 p 2^256 -/
theorem cb_lt {x y : R6} (hx : x.SCan) (hy : y.SCan) : 5 * cb x y < 6 * pN := by
  have h1 := prod_lt6 hx.1.1 hy.2.2.2
  have h2 := prod_lt6 hx.1.2 hy.2.2.1
  have h3 := prod_lt6 hx.2.1.1 hy.2.1.2
  have h4 := prod_lt6 hx.2.1.2 hy.2.1.1
  have h5 := prod_lt6 hx.2.2.1 hy.1.2
  have h6 := prod_lt6 hx.2.2.2 hy.1.1
  unfold cb
  omega

/-- five products of canonical values stay below pN -/
theorem prod_lt5 {x y : ℕ} (hx : x < p) (hy : y < p) : 5 * (x * y) < pN := by
  have := prod_lt6 hx hy; omega

namespace S2

/-- The pattern (x + y)(z + w) - (mulOpt1 x z + mulOpt1 y w): steps #2-#6 of `Fp6Dbl::mul`. -/
theorem cross {x y z w : R2} (hx : x.SCan) (hy : y.SCan) (hz : z.SCan) (hw : w.SCan) :
    let zc := mulOpt2 (addNC x y) (addNC z w)
    let zb := dAddNC (mulOpt1 x z) (mulOpt1 y w)
    let r : R2 := ⟨Snark.dblSub zc.a zb.a, Verif.Fp.dblSubNC zc.b zb.b⟩
    r.SRed ∧ r.sdenD = (x.sden + y.sden) * (z.sden + w.sden) - (x.sden * z.sden + y.sden * w.sden) ∧
      r.b = x.a * w.b + x.b * w.a + (y.a * z.b + y.b * z.a) := by
  intro zc zb r
  have hq := pN_qN
  have hp4 := pN_w
  have b1 := prod_lt hx.1 hz.1
  have b2 := prod_lt hx.2 hz.2
  have b3 := prod_lt hx.1 hz.2
  have b4 := prod_lt hx.2 hz.1
  have b5 := prod_lt hy.1 hw.1
  have b6 := prod_lt hy.2 hw.2
  have b7 := prod_lt hy.1 hw.2
  have b8 := prod_lt hy.2 hw.1
  have c1 := prod_lt hx.1 hw.2
  have c2 := prod_lt hx.2 hw.1
  have c3 := prod_lt hy.1 hz.2
  have c4 := prod_lt hy.2 hz.1
  have s1 := addNC_den hx hy
  have s2 := addNC_den hz hw
  have ezc : zc = ⟨Snark.dblSub ((x.a + y.a) * (z.a + w.a)) ((x.b + y.b) * (z.b + w.b)),
      (x.a + y.a) * (z.b + w.b) + (x.b + y.b) * (z.a + w.a)⟩ := by
    show mulOpt2 (addNC x y) (addNC z w) = _
    rw [mulOpt2_val s1.1 s2.1, addNC_val hx hy, addNC_val hz hw]
  have ezb : zb = ⟨(x.a * z.a + qN - x.b * z.b) + (y.a * w.a + qN - y.b * w.b),
      (x.a * z.b + x.b * z.a) + (y.a * w.b + y.b * w.a)⟩ := by
    show dAddNC (mulOpt1 x z) (mulOpt1 y w) = _
    rw [mulOpt1_val hx hz, mulOpt1_val hy hw]
    unfold dAddNC
    rw [daddNC (by show _ + _ < _; dsimp only; omega), daddNC (by show _ + _ < _; dsimp only; omega)]
  have hA : (x.a + y.a) * (z.a + w.a) < pN :=
    prod_lt2 (by have := hx.1; have := hy.1; omega) (by have := hz.1; have := hw.1; omega)
  have hB : (x.b + y.b) * (z.b + w.b) < pN :=
    prod_lt2 (by have := hx.2; have := hy.2; omega) (by have := hz.2; have := hw.2; omega)
  obtain ⟨d1, d2⟩ := dsub hA hB.le
  have hzba : zb.a ≤ pN := by rw [ezb]; dsimp only; omega
  have hzca : zc.a < pN := by rw [ezc]; exact d1
  obtain ⟨d3, d4⟩ := dsub hzca hzba
  have e : (x.a + y.a) * (z.b + w.b) + (x.b + y.b) * (z.a + w.a) =
      x.a * w.b + x.b * w.a + (y.a * z.b + y.b * z.a) +
      ((x.a * z.b + x.b * z.a) + (y.a * w.b + y.b * w.a)) := by ring
  have hrb : r.b = x.a * w.b + x.b * w.a + (y.a * z.b + y.b * z.a) := by
    show Verif.Fp.dblSubNC zc.b zb.b = _
    rw [ezc, ezb]; dsimp only
    rw [e, dsubNC (by omega) (by omega), Nat.add_sub_cancel]
  refine ⟨⟨d3, by rw [hrb]; omega⟩, G2.ext ?_ ?_, hrb⟩
  · rw [R2.sdenD_a]
    show residueD (Snark.dblSub zc.a zb.a) = _
    rw [d4, show residueD zc.a = _ from by rw [ezc], d2, show residueD zb.a = _ from by rw [ezb],
      residueD_add, residueD_sub (by omega), residueD_sub (by omega), residueD_qN, residueD_qN]
    simp only [G2.sub_a, G2.add_a, G2.add_b, G2.mul_a, R2.sden_a, R2.sden_b, residueD_mul, residue_plus]
  · rw [R2.sdenD_b, hrb]
    simp only [G2.sub_b, G2.add_a, G2.add_b, G2.mul_b, R2.sden_a, R2.sden_b, residueD_mul, residueD_add]
    ring

end S2

namespace S6

theorem dMul_den {x y : R6} (hx : x.SCan) (hy : y.SCan) :
    (dMul x y).a.SRed ∧ (dMul x y).b.SRed ∧ (dMul x y).c.a < pN ∧ (dMul x y).c.b = cb x y ∧
    (dMul x y).sdenD = x.sden * y.sden := by
  obtain ⟨hxa, hxb, hxc⟩ := hx
  obtain ⟨hya, hyb, hyc⟩ := hy
  obtain ⟨q0, r0⟩ := S2.mulOpt1_den hxa hya
  obtain ⟨q1, r1⟩ := S2.mulOpt1_den hxb hyb
  obtain ⟨q2, r2⟩ := S2.mulOpt1_den hxc hyc
  obtain ⟨k1, k2, -⟩ := S2.cross hxb hxc hyb hyc
  obtain ⟨l1, l2, -⟩ := S2.cross hxa hxb hya hyb
  obtain ⟨m1, m2, m3⟩ := S2.cross hxc hxa hyc hya
  dsimp only at k1 k2 l1 l2 m1 m2 m3
  have hadd1 : S2.addNC x.c x.a = S2.addNC x.a x.c := by
    rw [S2.addNC_val hxc hxa, S2.addNC_val hxa hxc, add_comm x.c.a, add_comm x.c.b]
  have hadd2 : S2.addNC y.c y.a = S2.addNC y.a y.c := by
    rw [S2.addNC_val hyc hya, S2.addNC_val hya hyc, add_comm y.c.a, add_comm y.c.b]
  rw [hadd1, hadd2] at m1 m2 m3
  -- first component
  obtain ⟨a1, a2⟩ := S2.dMulXi_den k1
  obtain ⟨a3, a4⟩ := S2.dAdd_den a1 q0
  -- second component
  have hq := pN_qN
  have hp4 := pN_w
  obtain ⟨s1, s2⟩ := S2.dMulXi_den q2
  obtain ⟨b1, b2⟩ := S2.dAdd_den s1 l1
  -- third component
  obtain ⟨c1, c2⟩ := dadd m1.1 q1.1
  have p5 := prod_lt5 hxb.1 hyb.2
  have p6 := prod_lt5 hxb.2 hyb.1
  have p7 := prod_lt5 hxc.1 hya.2
  have p8 := prod_lt5 hxc.2 hya.1
  have p9 := prod_lt5 hxa.1 hyc.2
  have p10 := prod_lt5 hxa.2 hyc.1
  have hv1 := S2.mulOpt1_val hxb hyb
  have hv1b : (S2.mulOpt1 x.b y.b).b = x.b.a * y.b.b + x.b.b * y.b.a := by rw [hv1]
  have c3 := daddNC (x := Verif.Fp.dblSubNC (S2.mulOpt2 (S2.addNC x.a x.c) (S2.addNC y.a y.c)).b
    (S2.dAddNC (S2.mulOpt1 x.c y.c) (S2.mulOpt1 x.a y.a)).b) (y := (S2.mulOpt1 x.b y.b).b)
    (by rw [m3, hv1b]; omega)
  have hcb : (dMul x y).c.b = cb x y := by
    show Verif.Fp.dblAddNC _ _ = _
    rw [c3, m3, hv1b]
    unfold cb; ring
  refine ⟨a3, b1, c1, hcb, G6.ext ?_ ?_ ?_⟩
  · rw [G6.mul_a]
    show (S2.dAdd _ _).sdenD = _
    rw [a4, a2, r0, k2]; simp only [R6.sden]; ring
  · rw [G6.mul_b]
    show (S2.dAdd _ _).sdenD = _
    rw [b2, s2, l2, r2]; simp only [R6.sden]; ring
  · have hc : (dMul x y).c.sdenD = (⟨Snark.dblSub (S2.mulOpt2 (S2.addNC x.a x.c) (S2.addNC y.a y.c)).a
        (S2.dAddNC (S2.mulOpt1 x.c y.c) (S2.mulOpt1 x.a y.a)).a,
        Verif.Fp.dblSubNC (S2.mulOpt2 (S2.addNC x.a x.c) (S2.addNC y.a y.c)).b
        (S2.dAddNC (S2.mulOpt1 x.c y.c) (S2.mulOpt1 x.a y.a)).b⟩ : R2).sdenD
        + (S2.mulOpt1 x.b y.b).sdenD := by
      unfold dMul
      refine G2.ext ?_ ?_
      · simp only [R2.sdenD_a, R2.sdenD_b, G2.add_a]
        rw [c2]
      · simp only [R2.sdenD_a, R2.sdenD_b, G2.add_b]
        rw [c3, residueD_add]
    rw [G6.mul_c]
    show (dMul x y).c.sdenD = _
    rw [hc, m2, r1]; simp only [R6.sden]; ring

theorem add_den {x y : R6} (hx : x.SCan) (hy : y.SCan) :
    (add x y).SCan ∧ (add x y).sden = x.sden + y.sden := by
  obtain ⟨a1, a2⟩ := S2.add_den hx.1 hy.1
  obtain ⟨b1, b2⟩ := S2.add_den hx.2.1 hy.2.1
  obtain ⟨c1, c2⟩ := S2.add_den hx.2.2 hy.2.2
  exact ⟨⟨a1, b1, c1⟩, G6.ext a2 b2 c2⟩

theorem sub_den {x y : R6} (hx : x.SCan) (hy : y.SCan) :
    (sub x y).SCan ∧ (sub x y).sden = x.sden - y.sden := by
  obtain ⟨a1, a2⟩ := S2.sub_den hx.1 hy.1
  obtain ⟨b1, b2⟩ := S2.sub_den hx.2.1 hy.2.1
  obtain ⟨c1, c2⟩ := S2.sub_den hx.2.2 hy.2.2
  exact ⟨⟨a1, b1, c1⟩, G6.ext a2 b2 c2⟩

theorem dAdd_den {x y : R6} (hx : x.SRed) (hy : y.SRed) :
    (dAdd x y).SRed ∧ (dAdd x y).sdenD = x.sdenD + y.sdenD := by
  obtain ⟨a1, a2⟩ := S2.dAdd_den hx.1 hy.1
  obtain ⟨b1, b2⟩ := S2.dAdd_den hx.2.1 hy.2.1
  obtain ⟨c1, c2⟩ := S2.dAdd_den hx.2.2 hy.2.2
  exact ⟨⟨a1, b1, c1⟩, G6.ext a2 b2 c2⟩

theorem dSub_den {x y : R6} (hx : x.SRed) (hy : y.SRed) :
    (dSub x y).SRed ∧ (dSub x y).sdenD = x.sdenD - y.sdenD := by
  have h : ∀ {z : R2}, z.SRed → z.a ≤ pN ∧ z.b ≤ pN := fun h => ⟨h.1.le, h.2.le⟩
  obtain ⟨a1, a2⟩ := S2.dSub_den hx.1 (h hy.1)
  obtain ⟨b1, b2⟩ := S2.dSub_den hx.2.1 (h hy.2.1)
  obtain ⟨c1, c2⟩ := S2.dSub_den hx.2.2 (h hy.2.2)
  exact ⟨⟨a1, b1, c1⟩, G6.ext a2 b2 c2⟩

theorem dMod_den {x : R6} (hx : x.SRed) : (dMod x).SCan ∧ (dMod x).sden = x.sdenD := by
  obtain ⟨a1, a2⟩ := S2.dMod_den hx.1
  obtain ⟨b1, b2⟩ := S2.dMod_den hx.2.1
  obtain ⟨c1, c2⟩ := S2.dMod_den hx.2.2
  exact ⟨⟨a1, b1, c1⟩, G6.ext a2 b2 c2⟩

/-- when the six products fit, the double value is reduced -/
theorem dMul_red {x y : R6} (hx : x.SCan) (hy : y.SCan) (h : cb x y < pN) :
    (dMul x y).SRed ∧ (dMul x y).sdenD = x.sden * y.sden := by
  obtain ⟨a, b, c, d, e⟩ := dMul_den hx hy
  exact ⟨⟨a, b, c, by rw [d]; exact h⟩, e⟩

/-- `Fp6::mul`: the value is always right; only the last component can be unreduced (below 1.2 p). -/
theorem mul_den {x y : R6} (hx : x.SCan) (hy : y.SCan) :
    (mul x y).sden = x.sden * y.sden ∧ (mul x y).a.SCan ∧ (mul x y).b.SCan ∧ (mul x y).c.a < p ∧
      5 * (mul x y).c.b < 6 * p := by
  obtain ⟨a, b, c, d, e⟩ := dMul_den hx hy
  obtain ⟨a1, a2⟩ := S2.dMod_den a
  obtain ⟨b1, b2⟩ := S2.dMod_den b
  obtain ⟨c1, c2⟩ := dmod c
  have hcb := cb_lt hx hy
  obtain ⟨d2, d3⟩ := dmod_wide (x := (dMul x y).c.b) (by rw [d]; omega)
  refine ⟨?_, a1, b1, c1, ?_⟩
  · rw [← e]
    exact G6.ext a2 b2 (G2.ext c2 d3)
  · show 5 * dblMod (dMul x y).c.b < 6 * p
    rcases d2 with h | h
    · omega
    · by_contra hc
      rw [d] at h hc
      have h1 : w256 * (6 * p) ≤ w256 * (5 * dblMod (cb x y)) := Nat.mul_le_mul_left _ (by omega)
      have h2 : w256 * (6 * p) = 6 * pN := by rw [pN_eq]; ring
      have h3 : w256 * (5 * dblMod (cb x y)) = 5 * (w256 * dblMod (cb x y)) := by ring
      omega

/-- `Fp6::mul` when the six products fit: canonical -/
theorem mul_den' {x y : R6} (hx : x.SCan) (hy : y.SCan) (h : cb x y < pN) :
    (mul x y).SCan ∧ (mul x y).sden = x.sden * y.sden := by
  obtain ⟨a, b⟩ := dMul_red hx hy h
  obtain ⟨c, d⟩ := dMod_den a
  exact ⟨c, d.trans b⟩

theorem mulGammaAdd_den {x y : R6} (hx : x.SCan) (hy : y.SCan) :
    ∃ z, mulGammaAdd x y = .ok z ∧ z.SCan ∧ z.sden = G6.v * x.sden + y.sden := by
  obtain ⟨t, e, h1, h2⟩ := S2.mulXi_den hx.2.2
  obtain ⟨h3, h4⟩ := S2.add_den h1 hy.1
  obtain ⟨h5, h6⟩ := S2.add_den hx.1 hy.2.1
  obtain ⟨h7, h8⟩ := S2.add_den hx.2.1 hy.2.2
  refine ⟨⟨S2.add t y.a, S2.add x.a y.b, S2.add x.b y.c⟩, ?_, ⟨h3, h5, h7⟩, ?_⟩
  · unfold mulGammaAdd; rw [e, Res.bind_ok]; rfl
  · rw [G6.v_mul]
    refine G6.ext ?_ ?_ ?_
    · refine h4.trans ?_; rw [h2]; rfl
    · exact h6
    · exact h8

theorem dMulGammaAdd_den {x y : R6} (hx : x.SRed) (hy : y.SRed) :
    (dMulGammaAdd x y).SRed ∧ (dMulGammaAdd x y).sdenD = G6.v * x.sdenD + y.sdenD := by
  obtain ⟨h1, h2⟩ := S2.dMulXi_den hx.2.2
  obtain ⟨h3, h4⟩ := S2.dAdd_den h1 hy.1
  obtain ⟨h5, h6⟩ := S2.dAdd_den hx.1 hy.2.1
  obtain ⟨h7, h8⟩ := S2.dAdd_den hx.2.1 hy.2.2
  refine ⟨⟨h3, h5, h7⟩, ?_⟩
  rw [G6.v_mul]
  refine G6.ext ?_ ?_ ?_
  · refine h4.trans ?_; rw [h2]; rfl
  · exact h6
  · exact h8

end S6
end Snark
end Verif
