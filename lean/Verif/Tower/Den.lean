import Verif.Tower.F2

/-! The `F2` element denoted by a pair of raw buffers, and the `Fp2Dbl` routines in these terms. -/

set_option linter.unusedSimpArgs false

namespace Verif
open Fp

/-- the element denoted by a (possibly unreduced) pair of 256-bit buffers -/
noncomputable def R2.den (x : R2) : F2 := ⟨Fe.ofZ (residue x.a), Fe.ofZ (residue x.b)⟩
/-- the element denoted by a pair of 512-bit buffers -/
noncomputable def R2.denD (x : R2) : F2 := ⟨Fe.ofZ (residueD x.a), Fe.ofZ (residueD x.b)⟩

theorem R2.den_a (x : R2) : x.den.a = Fe.ofZ (residue x.a) := rfl
theorem R2.den_b (x : R2) : x.den.b = Fe.ofZ (residue x.b) := rfl
theorem R2.denD_a (x : R2) : x.denD.a = Fe.ofZ (residueD x.a) := rfl
theorem R2.denD_b (x : R2) : x.denD.b = Fe.ofZ (residueD x.b) := rfl

/-- reduced double values -/
def R2.RedD (x : R2) : Prop := x.a < pN ∧ x.b < pN
/-- components below 2p -/
def R2.Lt2 (x : R2) : Prop := x.a < 2 * p ∧ x.b < 2 * p

theorem R2.Canon.lt2 {x : R2} (h : x.Canon) : x.Lt2 := ⟨by have := h.1; omega, by have := h.2; omega⟩

theorem Fe.ofZ_add (x y : ZMod p) : Fe.ofZ (x + y) = Fe.ofZ x + Fe.ofZ y := by
  apply Fe.toZ_inj; rw [Fe.toZ_add, Fe.toZ_ofZ, Fe.toZ_ofZ, Fe.toZ_ofZ]
theorem Fe.ofZ_sub (x y : ZMod p) : Fe.ofZ (x - y) = Fe.ofZ x - Fe.ofZ y := by
  apply Fe.toZ_inj; rw [Fe.toZ_sub, Fe.toZ_ofZ, Fe.toZ_ofZ, Fe.toZ_ofZ]
theorem Fe.ofZ_mul (x y : ZMod p) : Fe.ofZ (x * y) = Fe.ofZ x * Fe.ofZ y := by
  apply Fe.toZ_inj; rw [Fe.toZ_mul, Fe.toZ_ofZ, Fe.toZ_ofZ, Fe.toZ_ofZ]

theorem F2.den_raw (x : F2) : x.raw.den = x := F2.ext (Fe.ofZ_toZ x.a) (Fe.ofZ_toZ x.b)
theorem R2.den_inj {x y : R2} (hx : x.Canon) (hy : y.Canon) (h : x.den = y.den) : x = y := by
  have h1 := F2.den_raw (F2.ofRaw x hx)
  have h2 := F2.den_raw (F2.ofRaw y hy)
  rw [F2.raw_ofRaw] at h1 h2
  rw [← F2.raw_ofRaw hx, ← F2.raw_ofRaw hy, ← h1, ← h2, h]
theorem F2.eq_of_raw {x : F2} {r : R2} (h : x.raw = r) : x = r.den := by rw [← h, F2.den_raw]
theorem F2.ofRaw_eq {r : R2} (h : r.Canon) : F2.ofRaw r h = r.den := F2.eq_of_raw (F2.raw_ofRaw h)

namespace Fp2

theorem add_den {x y : R2} (hx : x.Canon) (hy : y.Canon) :
    (add x y).Canon ∧ (add x y).den = x.den + y.den :=
  ⟨⟨add_lt hx.1 hy.1, add_lt hx.2 hy.2⟩,
    F2.ext (by simp only [F2.add_a, F2.add_b, F2.sub_a, F2.sub_b, R2.den_a, R2.den_b, R2.denD_a, R2.denD_b, add]
               rw [residue_add hx.1 hy.1, Fe.ofZ_add])
           (by simp only [F2.add_a, F2.add_b, F2.sub_a, F2.sub_b, R2.den_a, R2.den_b, R2.denD_a, R2.denD_b, add]
               rw [residue_add hx.2 hy.2, Fe.ofZ_add])⟩

theorem sub_den {x y : R2} (hx : x.Canon) (hy : y.Canon) :
    (sub x y).Canon ∧ (sub x y).den = x.den - y.den :=
  ⟨⟨sub_lt hx.1 hy.1, sub_lt hx.2 hy.2⟩,
    F2.ext (by simp only [F2.add_a, F2.add_b, F2.sub_a, F2.sub_b, R2.den_a, R2.den_b, R2.denD_a, R2.denD_b, sub]
               rw [residue_sub hx.1 hy.1, Fe.ofZ_sub])
           (by simp only [F2.add_a, F2.add_b, F2.sub_a, F2.sub_b, R2.den_a, R2.den_b, R2.denD_a, R2.denD_b, sub]
               rw [residue_sub hx.2 hy.2, Fe.ofZ_sub])⟩

theorem addNC_den {x y : R2} (hx : x.Canon) (hy : y.Canon) :
    (addNC x y).Lt2 ∧ (addNC x y).den = x.den + y.den := by
  obtain ⟨h1, h2⟩ := hx
  obtain ⟨h3, h4⟩ := hy
  have e : addNC x y = ⟨x.a + y.a, x.b + y.b⟩ := by
    unfold addNC; rw [anc (by omega), anc (by omega)]
  rw [e]
  refine ⟨⟨by show x.a + y.a < _; omega, by show x.b + y.b < _; omega⟩, F2.ext ?_ ?_⟩
  · simp only [F2.add_a, F2.add_b, F2.sub_a, F2.sub_b, R2.den_a, R2.den_b, R2.denD_a, R2.denD_b]
    rw [residue_plus, Fe.ofZ_add]
  · simp only [F2.add_a, F2.add_b, F2.sub_a, F2.sub_b, R2.den_a, R2.den_b, R2.denD_a, R2.denD_b]
    rw [residue_plus, Fe.ofZ_add]

/-- canonical results stated through canonical operands -/
theorem mul_den {x y : R2} (hx : x.Canon) (hy : y.Canon) :
    (mul x y).Canon ∧ (mul x y).den = x.den * y.den := by
  obtain ⟨h1, h2, h3⟩ := mul_spec hx hy
  refine ⟨h1, F2.ext ?_ ?_⟩
  · rw [F2.mul_a]
    show Fe.ofZ (residue _) = Fe.ofZ _ * Fe.ofZ _ - Fe.ofZ _ * Fe.ofZ _
    rw [h2, Fe.ofZ_sub, Fe.ofZ_mul, Fe.ofZ_mul]
  · rw [F2.mul_b]
    show Fe.ofZ (residue _) = Fe.ofZ _ * Fe.ofZ _ + Fe.ofZ _ * Fe.ofZ _
    rw [h3, Fe.ofZ_add, Fe.ofZ_mul, Fe.ofZ_mul]

theorem square_den {x : R2} (hx : x.Canon) : (square x).Canon ∧ (square x).den = x.den * x.den := by
  obtain ⟨h1, h2, h3⟩ := square_spec hx
  refine ⟨h1, F2.ext ?_ ?_⟩
  · rw [F2.mul_a]
    show Fe.ofZ (residue _) = Fe.ofZ _ * Fe.ofZ _ - Fe.ofZ _ * Fe.ofZ _
    rw [h2, Fe.ofZ_sub, Fe.ofZ_mul, Fe.ofZ_mul]
  · rw [F2.mul_b]
    show Fe.ofZ (residue _) = Fe.ofZ _ * Fe.ofZ _ + Fe.ofZ _ * Fe.ofZ _
    rw [h3, Fe.ofZ_add, Fe.ofZ_mul, Fe.ofZ_mul]

theorem dSquare_den {x : R2} (hx : x.Canon) : (dSquare x).RedD ∧ (dSquare x).denD = x.den * x.den := by
  obtain ⟨h0, h1, h2, h3⟩ := dSquare_spec hx
  refine ⟨⟨h0, h1⟩, F2.ext ?_ ?_⟩
  · rw [F2.mul_a]
    show Fe.ofZ (residueD _) = Fe.ofZ _ * Fe.ofZ _ - Fe.ofZ _ * Fe.ofZ _
    rw [h2, Fe.ofZ_sub, Fe.ofZ_mul, Fe.ofZ_mul]
  · rw [F2.mul_b]
    show Fe.ofZ (residueD _) = Fe.ofZ _ * Fe.ofZ _ + Fe.ofZ _ * Fe.ofZ _
    rw [h3, Fe.ofZ_add, Fe.ofZ_mul, Fe.ofZ_mul]

theorem mulXi_den {x : R2} (hx : x.Canon) : (mulXi x).Canon ∧ (mulXi x).den = F2.xi * x.den := by
  refine ⟨⟨sub_lt hx.1 hx.2, add_lt hx.1 hx.2⟩, ?_⟩
  rw [← F2.mulXi_mul, F2.mulXi_eq]
  refine F2.ext ?_ ?_
  · simp only [F2.add_a, F2.add_b, F2.sub_a, F2.sub_b, R2.den_a, R2.den_b, R2.denD_a, R2.denD_b, mulXi]
    rw [residue_sub hx.1 hx.2, Fe.ofZ_sub]
  · simp only [F2.add_a, F2.add_b, F2.sub_a, F2.sub_b, R2.den_a, R2.den_b, R2.denD_a, R2.denD_b, mulXi]
    rw [residue_add hx.1 hx.2, Fe.ofZ_add]

theorem dAdd_den {x y : R2} (hx : x.RedD) (hy : y.RedD) :
    (dAdd x y).RedD ∧ (dAdd x y).denD = x.denD + y.denD := by
  obtain ⟨h1, h2⟩ := dadd hx.1 hy.1
  obtain ⟨h3, h4⟩ := dadd hx.2 hy.2
  refine ⟨⟨h1, h3⟩, F2.ext ?_ ?_⟩
  · simp only [F2.add_a, F2.add_b, F2.sub_a, F2.sub_b, R2.den_a, R2.den_b, R2.denD_a, R2.denD_b, dAdd]
    rw [h2, Fe.ofZ_add]
  · simp only [F2.add_a, F2.add_b, F2.sub_a, F2.sub_b, R2.den_a, R2.den_b, R2.denD_a, R2.denD_b, dAdd]
    rw [h4, Fe.ofZ_add]

theorem dSub_den {x y : R2} (hx : x.RedD) (hy : y.a ≤ pN ∧ y.b ≤ pN) :
    (dSub x y).RedD ∧ (dSub x y).denD = x.denD - y.denD := by
  obtain ⟨h1, h2⟩ := dsub hx.1 hy.1
  obtain ⟨h3, h4⟩ := dsub hx.2 hy.2
  refine ⟨⟨h1, h3⟩, F2.ext ?_ ?_⟩
  · simp only [F2.add_a, F2.add_b, F2.sub_a, F2.sub_b, R2.den_a, R2.den_b, R2.denD_a, R2.denD_b, dSub]
    rw [h2, Fe.ofZ_sub]
  · simp only [F2.add_a, F2.add_b, F2.sub_a, F2.sub_b, R2.den_a, R2.den_b, R2.denD_a, R2.denD_b, dSub]
    rw [h4, Fe.ofZ_sub]

theorem dMulXi_den {x : R2} (hx : x.RedD) : (dMulXi x).RedD ∧ (dMulXi x).denD = F2.xi * x.denD := by
  obtain ⟨h1, h2⟩ := dsub hx.1 hx.2.le
  obtain ⟨h3, h4⟩ := dadd hx.2 hx.1
  refine ⟨⟨h1, h3⟩, ?_⟩
  rw [← F2.mulXi_mul, F2.mulXi_eq]
  refine F2.ext ?_ ?_
  · simp only [F2.add_a, F2.add_b, F2.sub_a, F2.sub_b, R2.den_a, R2.den_b, R2.denD_a, R2.denD_b, dMulXi]
    rw [h2, Fe.ofZ_sub]
  · simp only [F2.add_a, F2.add_b, F2.sub_a, F2.sub_b, R2.den_a, R2.den_b, R2.denD_a, R2.denD_b, dMulXi]
    rw [h4, Fe.ofZ_add, add_comm]

theorem dMod_den {x : R2} (hx : x.RedD) : (dMod x).Canon ∧ (dMod x).den = x.denD := by
  obtain ⟨h1, h2⟩ := dmod hx.1
  obtain ⟨h3, h4⟩ := dmod hx.2
  exact ⟨⟨h1, h3⟩, F2.ext (congrArg Fe.ofZ h2) (congrArg Fe.ofZ h4)⟩

/-- exact value of `mulOpt2` on operands below 2p -/
theorem mulOpt2_val {x y : R2} (hx : x.Lt2) (hy : y.Lt2) :
    mulOpt2 x y = ⟨Fp.dblSub (x.a * y.a) (x.b * y.b), x.a * y.b + x.b * y.a⟩ := by
  obtain ⟨h1, h2⟩ := hx
  obtain ⟨h3, h4⟩ := hy
  unfold mulOpt2
  dsimp only
  rw [karat h1 h2 h3 h4, dmul (x := x.a) (by omega) (by omega), dmul (x := x.b) (by omega) (by omega)]

theorem prod_denD {x y : R2} {za : ℕ} (h : residueD za = residueD (x.a * y.a) - residueD (x.b * y.b)) :
    (⟨za, x.a * y.b + x.b * y.a⟩ : R2).denD = x.den * y.den := by
  refine F2.ext ?_ ?_
  · rw [F2.mul_a]
    show Fe.ofZ (residueD _) = Fe.ofZ _ * Fe.ofZ _ - Fe.ofZ _ * Fe.ofZ _
    rw [h, residueD_mul, residueD_mul, Fe.ofZ_sub, Fe.ofZ_mul, Fe.ofZ_mul]
  · rw [F2.mul_b]
    show Fe.ofZ (residueD _) = Fe.ofZ _ * Fe.ofZ _ + Fe.ofZ _ * Fe.ofZ _
    rw [residueD_add, residueD_mul, residueD_mul, Fe.ofZ_add, Fe.ofZ_mul, Fe.ofZ_mul]

theorem mulOpt2_den {x y : R2} (hx : x.Canon) (hy : y.Canon) :
    (mulOpt2 x y).RedD ∧ (mulOpt2 x y).denD = x.den * y.den := by
  rw [mulOpt2_val hx.lt2 hy.lt2]
  have hq := pN_qN
  have h1 := prod_lt hx.1 hy.1
  have h2 := prod_lt hx.2 hy.2
  have h3 := prod_lt hx.1 hy.2
  have h4 := prod_lt hx.2 hy.1
  obtain ⟨h5, h6⟩ := dsub (x := x.a * y.a) (y := x.b * y.b) (by omega) (by omega)
  exact ⟨⟨h5, by show x.a * y.b + x.b * y.a < _; omega⟩, prod_denD h6⟩

theorem mulOpt1_val {x y : R2} (hx : x.Canon) (hy : y.Canon) :
    mulOpt1 x y = ⟨x.a * y.a + qN - x.b * y.b, x.a * y.b + x.b * y.a⟩ := by
  obtain ⟨h1, h2⟩ := hx
  obtain ⟨h3, h4⟩ := hy
  have hq := pN_qN
  have h5 := prod_lt h1 h3
  have h6 := prod_lt h2 h4
  unfold mulOpt1
  dsimp only
  rw [karat (by omega) (by omega) (by omega) (by omega), dmul (x := x.a) (by omega) (by omega),
    dmul (x := x.b) (by omega) (by omega), (dsubOpt1 (by omega) (by omega)).1]

theorem mulOpt1_den {x y : R2} (hx : x.Canon) (hy : y.Canon) :
    (mulOpt1 x y).RedD ∧ (mulOpt1 x y).denD = x.den * y.den := by
  rw [mulOpt1_val hx hy]
  have hq := pN_qN
  have h1 := prod_lt hx.1 hy.1
  have h2 := prod_lt hx.2 hy.2
  have h3 := prod_lt hx.1 hy.2
  have h4 := prod_lt hx.2 hy.1
  refine ⟨⟨by show x.a * y.a + qN - x.b * y.b < _; omega, by show x.a * y.b + x.b * y.a < _; omega⟩, prod_denD ?_⟩
  rw [residueD_sub (by omega), residueD_qN]

theorem neg_den {x : R2} (hx : x.Canon) : (neg x).Canon ∧ (neg x).den = -x.den := by
  refine ⟨⟨neg_lt hx.1, neg_lt hx.2⟩, ?_⟩
  exact (F2.ofRaw_eq (r := neg x) ⟨neg_lt hx.1, neg_lt hx.2⟩).symm.trans (by
    rw [← F2.ofRaw_eq hx]; rfl)

end Fp2
end Verif
