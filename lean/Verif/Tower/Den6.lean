import Verif.Tower.Den

/-! `Fp6Dbl::mul` on canonical operands. -/

namespace Verif
open Fp

def R6.Canon (x : R6) : Prop := x.a.Canon ∧ x.b.Canon ∧ x.c.Canon
def R6.RedD (x : R6) : Prop := x.a.RedD ∧ x.b.RedD ∧ x.c.RedD

instance (x : R6) : Decidable x.Canon := by unfold R6.Canon; infer_instance

/-- three products of canonical values stay below two subOpt1 offsets -/
theorem Fp.prod_lt3 {x y : ℕ} (hx : x < p) (hy : y < p) : 3 * (x * y) < 2 * qN := by
  have h1 : x * y ≤ p * p := Nat.mul_le_mul hx.le hy.le
  have h2 : 3 * (p * p) < 2 * qN := by unfold qN; rw [p_eq]; norm_num
  omega

namespace Fp2

/-- exact sums -/
theorem addNC_val {x y : R2} (hx : x.Canon) (hy : y.Canon) :
    addNC x y = ⟨x.a + y.a, x.b + y.b⟩ := by
  obtain ⟨h1, h2⟩ := hx
  obtain ⟨h3, h4⟩ := hy
  unfold addNC; rw [anc (by omega), anc (by omega)]

/-- The pattern (x + y)(z + w) - (mulOpt1 x z + mulOpt1 y w): steps #2-#6 of `Fp6Dbl::mul`. -/
theorem cross {x y z w : R2} (hx : x.Canon) (hy : y.Canon) (hz : z.Canon) (hw : w.Canon) :
    let zc := mulOpt2 (addNC x y) (addNC z w)
    let zb := dAddNC (mulOpt1 x z) (mulOpt1 y w)
    let r : R2 := ⟨Fp.dblSub zc.a zb.a, Fp.dblSubNC zc.b zb.b⟩
    r.RedD ∧ r.denD = (x.den + y.den) * (z.den + w.den) - (x.den * z.den + y.den * w.den) ∧
      r.b = x.a * w.b + x.b * w.a + (y.a * z.b + y.b * z.a) := by
  intro zc zb r
  have hq := pN_qN
  have hp4 := pN_w
  have b1 := prod_lt hx.1 hz.1
  have b2 := prod_lt hx.2 hz.2
  have b3 := prod_lt hx.1 hz.2
  have b4 := prod_lt hx.2 hz.1
  have b5 := prod_lt hy.1 hw.1
  have b6 := prod_lt hy.2 hw.2
  have b7 := prod_lt hy.1 hw.2
  have b8 := prod_lt hy.2 hw.1
  have c1 := prod_lt hx.1 hw.2
  have c2 := prod_lt hx.2 hw.1
  have c3 := prod_lt hy.1 hz.2
  have c4 := prod_lt hy.2 hz.1
  have s1 := addNC_den hx hy
  have s2 := addNC_den hz hw
  have ezc : zc = ⟨Fp.dblSub ((x.a + y.a) * (z.a + w.a)) ((x.b + y.b) * (z.b + w.b)),
      (x.a + y.a) * (z.b + w.b) + (x.b + y.b) * (z.a + w.a)⟩ := by
    show mulOpt2 (addNC x y) (addNC z w) = _
    rw [mulOpt2_val s1.1 s2.1, addNC_val hx hy, addNC_val hz hw]
  have ezb : zb = ⟨(x.a * z.a + qN - x.b * z.b) + (y.a * w.a + qN - y.b * w.b),
      (x.a * z.b + x.b * z.a) + (y.a * w.b + y.b * w.a)⟩ := by
    show dAddNC (mulOpt1 x z) (mulOpt1 y w) = _
    rw [mulOpt1_val hx hz, mulOpt1_val hy hw]
    unfold dAddNC
    rw [daddNC (by show _ + _ < _; dsimp only; omega), daddNC (by show _ + _ < _; dsimp only; omega)]
  have hA : (x.a + y.a) * (z.a + w.a) < pN :=
    prod_lt2 (by have := hx.1; have := hy.1; omega) (by have := hz.1; have := hw.1; omega)
  have hB : (x.b + y.b) * (z.b + w.b) < pN :=
    prod_lt2 (by have := hx.2; have := hy.2; omega) (by have := hz.2; have := hw.2; omega)
  obtain ⟨d1, d2⟩ := dsub hA hB.le
  have hzba : zb.a ≤ pN := by rw [ezb]; dsimp only; omega
  have hzca : zc.a < pN := by rw [ezc]; exact d1
  obtain ⟨d3, d4⟩ := dsub hzca hzba
  have e : (x.a + y.a) * (z.b + w.b) + (x.b + y.b) * (z.a + w.a) =
      x.a * w.b + x.b * w.a + (y.a * z.b + y.b * z.a) +
      ((x.a * z.b + x.b * z.a) + (y.a * w.b + y.b * w.a)) := by ring
  have hrb : r.b = x.a * w.b + x.b * w.a + (y.a * z.b + y.b * z.a) := by
    show Fp.dblSubNC zc.b zb.b = _
    rw [ezc, ezb]; dsimp only
    rw [e, dsubNC (by omega) (by omega), Nat.add_sub_cancel]
  refine ⟨⟨d3, by rw [hrb]; omega⟩, F2.ext ?_ ?_, hrb⟩
  · rw [R2.denD_a]
    show Fe.ofZ (residueD (Fp.dblSub zc.a zb.a)) = _
    rw [d4, show residueD zc.a = _ from by rw [ezc], d2, show residueD zb.a = _ from by rw [ezb],
      residueD_add, residueD_sub (by omega), residueD_sub (by omega), residueD_qN, residueD_qN]
    simp only [F2.sub_a, F2.add_a, F2.add_b, F2.mul_a, R2.den_a, R2.den_b, residueD_mul, residue_plus,
      Fe.ofZ_add, Fe.ofZ_sub, Fe.ofZ_mul]
  · rw [R2.denD_b, hrb]
    simp only [F2.sub_b, F2.add_a, F2.add_b, F2.mul_b, R2.den_a, R2.den_b, residueD_mul, residueD_add,
      Fe.ofZ_add, Fe.ofZ_sub, Fe.ofZ_mul]
    ring

end Fp2

namespace Fp6

theorem dMul_den {x y : R6} (hx : x.Canon) (hy : y.Canon) : (dMul x y).RedD ∧
    (dMul x y).a.denD = x.a.den * y.a.den + F2.xi * (x.b.den * y.c.den + x.c.den * y.b.den) ∧
    (dMul x y).b.denD = x.a.den * y.b.den + x.b.den * y.a.den + F2.xi * (x.c.den * y.c.den) ∧
    (dMul x y).c.denD = x.a.den * y.c.den + x.b.den * y.b.den + x.c.den * y.a.den := by
  obtain ⟨hxa, hxb, hxc⟩ := hx
  obtain ⟨hya, hyb, hyc⟩ := hy
  obtain ⟨q0, r0⟩ := Fp2.mulOpt1_den hxa hya
  obtain ⟨q1, r1⟩ := Fp2.mulOpt1_den hxb hyb
  obtain ⟨q2, r2⟩ := Fp2.mulOpt1_den hxc hyc
  obtain ⟨k1, k2, -⟩ := Fp2.cross hxb hxc hyb hyc
  obtain ⟨l1, l2, -⟩ := Fp2.cross hxa hxb hya hyb
  obtain ⟨m1, m2, m3⟩ := Fp2.cross hxc hxa hyc hya
  dsimp only at k1 k2 l1 l2 m1 m2 m3
  have hadd1 : Fp2.addNC x.c x.a = Fp2.addNC x.a x.c := by
    rw [Fp2.addNC_val hxc hxa, Fp2.addNC_val hxa hxc, add_comm x.c.a, add_comm x.c.b]
  have hadd2 : Fp2.addNC y.c y.a = Fp2.addNC y.a y.c := by
    rw [Fp2.addNC_val hyc hya, Fp2.addNC_val hya hyc, add_comm y.c.a, add_comm y.c.b]
  rw [hadd1, hadd2] at m1 m2 m3
  -- first component
  obtain ⟨a1, a2⟩ := Fp2.dMulXi_den k1
  obtain ⟨a3, a4⟩ := Fp2.dAdd_den a1 q0
  -- second component
  have hq := pN_qN
  have hp4 := pN_w
  have hv2 := Fp2.mulOpt1_val hxc hyc
  have p1 := prod_lt3 hxc.1 hyc.1
  have p2 := prod_lt3 hxc.2 hyc.2
  have p3 := prod_lt3 hxc.1 hyc.2
  have p4 := prod_lt3 hxc.2 hyc.1
  obtain ⟨s1, s2⟩ := dsubOpt1 (x := (Fp2.mulOpt1 x.c y.c).a) (y := (Fp2.mulOpt1 x.c y.c).b)
    q2.1 (by rw [hv2]; dsimp only; omega)
  obtain ⟨s3, s4⟩ := dadd q2.1 q2.2
  have hxi : ∀ z : R2, ∀ s t : ℕ, residueD s = residueD z.a - residueD z.b →
      residueD t = residueD z.a + residueD z.b → (⟨s, t⟩ : R2).denD = F2.xi * z.denD := by
    intro z s t h1 h2
    rw [← F2.mulXi_mul, F2.mulXi_eq]
    refine F2.ext ?_ ?_
    · simp only [R2.denD_a, R2.denD_b]; rw [h1, Fe.ofZ_sub]
    · simp only [R2.denD_a, R2.denD_b]; rw [h2, Fe.ofZ_add]
  have hxiT := hxi _ _ _ s2 s4
  have hred : (⟨Fp.dblSubOpt1 (Fp2.mulOpt1 x.c y.c).a (Fp2.mulOpt1 x.c y.c).b,
      Fp.dblAdd (Fp2.mulOpt1 x.c y.c).a (Fp2.mulOpt1 x.c y.c).b⟩ : R2).RedD := by
    refine ⟨?_, s3⟩
    show Fp.dblSubOpt1 _ _ < _
    rw [s1, hv2]; dsimp only; omega
  obtain ⟨b1, b2⟩ := Fp2.dAdd_den hred l1
  -- third component
  obtain ⟨c1, c2⟩ := dadd m1.1 q1.1
  have p5 := prod_lt3 hxb.1 hyb.2
  have p6 := prod_lt3 hxb.2 hyb.1
  have p7 := prod_lt3 hxc.1 hya.2
  have p8 := prod_lt3 hxc.2 hya.1
  have p9 := prod_lt3 hxa.1 hyc.2
  have p10 := prod_lt3 hxa.2 hyc.1
  have hv1 := Fp2.mulOpt1_val hxb hyb
  have hv1b : (Fp2.mulOpt1 x.b y.b).b = x.b.a * y.b.b + x.b.b * y.b.a := by rw [hv1]
  have c3 := daddNC (x := Fp.dblSubNC (Fp2.mulOpt2 (Fp2.addNC x.a x.c) (Fp2.addNC y.a y.c)).b
    (Fp2.dAddNC (Fp2.mulOpt1 x.c y.c) (Fp2.mulOpt1 x.a y.a)).b) (y := (Fp2.mulOpt1 x.b y.b).b)
    (by rw [m3, hv1b]; omega)
  refine ⟨⟨a3, b1, c1, ?_⟩, ?_, ?_, ?_⟩
  · show Fp.dblAddNC _ _ < _
    rw [c3, m3, hv1b]
    omega
  · show (Fp2.dAdd _ _).denD = _
    rw [a4, a2, r0, k2]; ring
  · show (Fp2.dAdd _ _).denD = _
    rw [b2, hxiT, l2, r2]; ring
  · have hc : (dMul x y).c.denD = (⟨Fp.dblSub (Fp2.mulOpt2 (Fp2.addNC x.a x.c) (Fp2.addNC y.a y.c)).a
        (Fp2.dAddNC (Fp2.mulOpt1 x.c y.c) (Fp2.mulOpt1 x.a y.a)).a,
        Fp.dblSubNC (Fp2.mulOpt2 (Fp2.addNC x.a x.c) (Fp2.addNC y.a y.c)).b
        (Fp2.dAddNC (Fp2.mulOpt1 x.c y.c) (Fp2.mulOpt1 x.a y.a)).b⟩ : R2).denD
        + (Fp2.mulOpt1 x.b y.b).denD := by
      unfold dMul
      refine F2.ext ?_ ?_
      · simp only [R2.denD_a, R2.denD_b, F2.add_a]
        rw [c2, Fe.ofZ_add]
      · simp only [R2.denD_a, R2.denD_b, F2.add_b]
        rw [c3, residueD_add, Fe.ofZ_add]
    rw [hc, m2, r1]; ring

end Fp6
end Verif
