import Verif.Snark.Final
import Verif.PowerLemmas

/-! The final exponentiation of the SNARK build: elements denoted by the buffers. -/

namespace Verif.Snark

open scoped Verif

/-! ### Values -/

/-- canonical buffers denoting g -/
def V2 (g : G2) (x : R2) : Prop := x.SCan ∧ x.sden = g
def V6 (g : G6) (x : R6) : Prop := x.SCan ∧ x.sden = g
def V12 (g : G12) (x : R12) : Prop := x.SCan ∧ x.sden = g

/-- A checked run that ends normally is a run of the code, and its result satisfies P. -/
def Spec {α : Type} (m : Bool → Res α) (P : α → Prop) : Prop :=
  ∀ y, m true = .ok y → m false = .ok y ∧ P y

theorem Spec.pure {α : Type} {P : α → Prop} {a : α} (h : P a) : Spec (fun _ => (Pure.pure a : Res α)) P := by
  intro y e; cases e; exact ⟨rfl, h⟩
theorem Spec.const {α : Type} {P : α → Prop} {m : Res α} (h : ∃ a, m = .ok a ∧ P a) : Spec (fun _ => m) P := by
  obtain ⟨a, e, h⟩ := h
  intro y e'; dsimp only at e'; rw [e] at e'; cases e'; exact ⟨e, h⟩
theorem Spec.bind {α β : Type} {m : Bool → Res α} {P : α → Prop} (h : Spec m P) {g : Bool → α → Res β} {Q : β → Prop}
    (hg : ∀ a, P a → Spec (fun k => g k a) Q) : Spec (fun k => m k >>= g k) Q := by
  intro y e
  dsimp only at e ⊢
  cases hm : m true with
  | ok a =>
    rw [hm, Res.bind_ok] at e
    obtain ⟨e1, ha⟩ := h a hm
    rw [e1, Res.bind_ok]
    exact hg a ha y e
  | _ => rw [hm] at e; cases e
theorem Spec.mono {α : Type} {m : Bool → Res α} {P Q : α → Prop} (h : Spec m P) (hpq : ∀ a, P a → Q a) : Spec m Q :=
  fun y e => ⟨(h y e).1, hpq y (h y e).2⟩

namespace V2
variable {g h : G2} {x y : R2}
theorem add (hx : V2 g x) (hy : V2 h y) : V2 (g + h) (S2.add x y) := by
  obtain ⟨a, b⟩ := S2.add_den hx.1 hy.1; exact ⟨a, by rw [b, hx.2, hy.2]⟩
theorem sub (hx : V2 g x) (hy : V2 h y) : V2 (g - h) (S2.sub x y) := by
  obtain ⟨a, b⟩ := S2.sub_den hx.1 hy.1; exact ⟨a, by rw [b, hx.2, hy.2]⟩
theorem mul (hx : V2 g x) (hy : V2 h y) : V2 (g * h) (S2.mul x y) := by
  obtain ⟨a, b⟩ := S2.mul_den hx.1 hy.1; exact ⟨a, by rw [b, hx.2, hy.2]⟩
theorem neg (hx : V2 g x) : V2 (-g) (S2.neg x) := by
  obtain ⟨a, b⟩ := S2.neg_den hx.1; exact ⟨a, by rw [b, hx.2]⟩
theorem square (hx : V2 g x) : V2 (g * g) (S2.square x) := by
  obtain ⟨a, b⟩ := S2.square_den hx.1; exact ⟨a, by rw [b, hx.2]⟩
theorem mulXi (hx : V2 g x) : ∃ z, S2.mulXi x = .ok z ∧ V2 (G2.xi * g) z := by
  obtain ⟨z, e, a, b⟩ := S2.mulXi_den hx.1; exact ⟨z, e, a, by rw [b, hx.2]⟩
theorem inverse (hx : V2 g x) (h0 : g ≠ 0) : ∃ z, S2.inverse x = .ok z ∧ V2 g⁻¹ z := by
  obtain ⟨z, e, a, b⟩ := S2.inverse_den hx.1 (by rw [hx.2]; exact h0)
  exact ⟨z, e, a, by rw [hx.2] at b; exact eq_inv_of_mul_eq_one_left b⟩
theorem cj (hx : V2 g x) : V2 g.conj (S12.cj x) := by
  refine ⟨⟨hx.1.1, neg_lt hx.1.2⟩, ?_⟩
  rw [← hx.2]
  exact G2.ext rfl (residue_neg hx.1.2)
theorem mulFp0 (hx : V2 g x) (hy : V2 h y) (h0 : h.b = 0) : V2 (g * h) (S2.mulFp0 x y.a) := by
  obtain ⟨a, b⟩ := S2.mulFp0_den hx.1 hy.1.1
  refine ⟨a, ?_⟩
  rw [b, hx.2]
  congr 1
  rw [← hy.2]
  refine G2.ext rfl ?_
  rw [hy.2]; exact h0.symm
theorem sqFp4 (hx : V2 g x) (hy : V2 h y) : V2 (g * g + G2.xi * (h * h)) (S12.sqFp4 x y).1 ∧
    V2 (2 * (g * h)) (S12.sqFp4 x y).2 := by
  obtain ⟨a, b, c, d⟩ := S12.sqFp4_den hx.1 hy.1
  exact ⟨⟨a, by rw [c, hx.2, hy.2]⟩, ⟨b, by rw [d, hx.2, hy.2]⟩⟩
end V2

/-! ### Constants -/

section
variable {T U : Type} [Mul T] [Mul U] (φ : T → U) (hm : ∀ a b, φ (a * b) = φ a * φ b)
include hm
theorem powInner_map (v n : ℕ) : ∀ (j : ℕ) (o t : T),
    φ (powInner v n j o t).1 = (powInner v n j (φ o) (φ t)).1 ∧ φ (powInner v n j o t).2 = (powInner v n j (φ o) (φ t)).2 := by
  induction n with
  | zero => intro j o t; exact ⟨rfl, rfl⟩
  | succ n ih =>
    intro j o t
    simp only [powInner]
    have := ih (j + 1) (if v.testBit j then o * t else o) (t * t)
    rw [apply_ite φ, hm, hm] at this
    exact this
theorem powBlocks_map (W : ℕ) : ∀ (vs : List ℕ) (o t : T), φ (powBlocks W vs o t) = powBlocks W vs (φ o) (φ t)
  | [], _, _ => rfl
  | [v], o, t => (powInner_map φ hm v _ 0 o t).1
  | v :: w :: vs, o, t => by
    simp only [powBlocks]
    rw [powBlocks_map W (w :: vs), (powInner_map φ hm v _ 0 o t).1, (powInner_map φ hm v _ 0 o t).2]
theorem power_map [One T] [One U] (h1 : φ 1 = 1) (x : T) (vs : List ℕ) : φ (power x vs) = power (φ x) vs := by
  unfold power; rw [powBlocks_map φ hm, h1]
end

theorem one_sden : (⟨montR, 0⟩ : R2).sden = 1 := G2.ext residue_montR residue_zero
theorem xiR_sden : xiR.sden = G2.xi := by
  refine G2.ext ?_ residue_montR
  have h : residue (toMont 9) = _ := residue_toMont (x := 9) (by rw [p_eq]; norm_num)
  exact h.trans (by simp only [G2.xi]; norm_num)

theorem gammar_val : ∀ i : ℕ, V2 (G2.gam ^ (i + 1)) (gammar i) := by
  have h : V2 G2.gam (power (⟨xiR, xiR_can⟩ : C2) pSub1Div6V).v := by
    refine ⟨(power (⟨xiR, xiR_can⟩ : C2) pSub1Div6V).can, ?_⟩
    have := power_map (fun c : C2 => c.v.sden) (fun a b => (S2.mul_den a.can b.can).2) one_sden
      (⟨xiR, xiR_can⟩ : C2) pSub1Div6V
    rw [G2.gam_eq]
    refine this.trans ?_
    show power xiR.sden _ = _
    rw [xiR_sden, power_eq G2.xi pSub1Div6V_wf.1.isWords, pSub1Div6V_wf.2]
  intro i
  induction i with
  | zero => rw [zero_add, pow_one]; exact h
  | succ i ih => rw [pow_succ]; exact ih.mul h

theorem gammar2_val (i : ℕ) : V2 (G2.om ^ (i + 1)) (gammar2 i) := by
  rw [← G2.gam_norm]
  exact (gammar_val i).cj.mul (gammar_val i)
theorem gammar3_val (i : ℕ) : V2 (G2.gam ^ (i + 1) * G2.om ^ (i + 1)) (gammar3 i) :=
  (gammar_val i).mul (gammar2_val i)

/-! ### Routines -/

namespace V6
variable {g h : G6} {x y : R6}
theorem neg (hx : V6 g x) : V6 (-g) (S6.neg x) := by
  obtain ⟨⟨h1, h2, h3⟩, rfl⟩ := hx
  obtain ⟨a1, b1⟩ := S2.neg_den h1
  obtain ⟨a2, b2⟩ := S2.neg_den h2
  obtain ⟨a3, b3⟩ := S2.neg_den h3
  exact ⟨⟨a1, a2, a3⟩, G6.ext b1 b2 b3⟩
theorem mulK (hx : V6 g x) (hy : V6 h y) : Spec (fun k => S6.mulK k x y) (V6 (g * h)) := by
  intro z e
  dsimp only [S6.mulK] at e ⊢
  rw [if_neg (by simp)]
  split at e
  · cases e
  · rename_i hc
    cases e
    obtain ⟨a, b⟩ := S6.mul_den' hx.1 hy.1 (by
      by_contra h; exact hc ⟨rfl, h⟩)
    exact ⟨rfl, a, by rw [b, hx.2, hy.2]⟩
theorem mk {g0 g1 g2 : G2} {x0 x1 x2 : R2} (h0 : V2 g0 x0) (h1 : V2 g1 x1) (h2 : V2 g2 x2) :
    V6 ⟨g0, g1, g2⟩ ⟨x0, x1, x2⟩ := ⟨⟨h0.1, h1.1, h2.1⟩, G6.ext h0.2 h1.2 h2.2⟩
theorem pa (hx : V6 g x) : V2 g.a x.a := ⟨hx.1.1, by rw [← hx.2]; rfl⟩
theorem pb (hx : V6 g x) : V2 g.b x.b := ⟨hx.1.2.1, by rw [← hx.2]; rfl⟩
theorem pc (hx : V6 g x) : V2 g.c x.c := ⟨hx.1.2.2, by rw [← hx.2]; rfl⟩

theorem square (hx : V6 g x) : ∃ z, S6.square x = .ok z ∧ V6 (g * g) z := by
  have v4 := ((hx.pa.add hx.pa).mul hx.pb)
  have v5 := hx.pc.square
  obtain ⟨zb, e1, hb⟩ := v5.mulXi
  have v3 := hx.pa.square
  have v4' := ((hx.pa.sub hx.pb).add hx.pc).square
  have v5' := (hx.pb.add hx.pb).mul hx.pc
  obtain ⟨za, e2, ha⟩ := v5'.mulXi
  have := mk (ha.add v3) (hb.add v4) ((((v4.sub v5).add v4').add v5').sub v3)
  refine ⟨_, ?_, this.1, this.2.trans (G6.ext ?_ ?_ ?_)⟩
  rotate_left
  · rw [G6.mul_a]; ring
  · rw [G6.mul_b]; ring
  · rw [G6.mul_c]; ring
  · unfold S6.square
    dsimp only
    rw [e1, Res.bind_ok, e2, Res.bind_ok]
    rfl

theorem inverse (hx : V6 g x) (h0 : g ≠ 0) : ∃ z, S6.inverse x = .ok z ∧ V6 g⁻¹ z := by
  obtain ⟨a0, e0, ha0⟩ := (hx.pb.mul hx.pc).mulXi
  have ha := hx.pa.square.sub ha0
  have hc := hx.pb.square.sub (hx.pa.mul hx.pc)
  obtain ⟨b0, e1, hb0⟩ := hx.pc.square.mulXi
  have hb := hb0.sub (hx.pa.mul hx.pb)
  obtain ⟨t4, e2, h4⟩ := (hx.pc.mul hb).mulXi
  obtain ⟨t5, e3, h5⟩ := (hx.pb.mul hc).mulXi
  have ht := ((hx.pa.mul ha).add h4).add h5
  have hn : g.a * (g.a * g.a - G2.xi * (g.b * g.c)) + G2.xi * (g.c * (G2.xi * (g.c * g.c) - g.a * g.b)) +
      G2.xi * (g.b * (g.b * g.b - g.a * g.c)) = g.norm := by
    unfold G6.norm; ring
  rw [hn] at ht
  obtain ⟨ti, e4, hi⟩ := ht.inverse (G6.norm_ne h0)
  have := mk (ha.mul hi) (hb.mul hi) (hc.mul hi)
  refine ⟨_, ?_, this.1, this.2.trans ?_⟩
  rotate_left
  · rw [G6.inv_def]
  · unfold S6.inverse
    dsimp only
    rw [e0, Res.bind_ok, e1, Res.bind_ok, e2, Res.bind_ok, e3, Res.bind_ok, e4, Res.bind_ok]
    rfl
end V6

theorem easy_aux {K : Type} [Field K] {x : K} (hx : x ≠ 0) (A B : ℕ) (hA : 1 ≤ A) :
    (x ^ A * x⁻¹) ^ B * (x ^ A * x⁻¹) = x ^ ((A - 1) * (B + 1)) := by
  have : x ^ A * x⁻¹ = x ^ (A - 1) := by
    obtain ⟨a, rfl⟩ := Nat.exists_eq_add_of_le' hA
    rw [pow_succ, mul_assoc, mul_inv_cancel₀ hx, mul_one, Nat.add_sub_cancel]
  rw [this, ← pow_succ, ← pow_mul]

namespace V12
variable {g h : G12} {x y : R12}
theorem pa (hx : V12 g x) : V6 g.a x.a := ⟨hx.1.1, by rw [← hx.2]; rfl⟩
theorem pb (hx : V12 g x) : V6 g.b x.b := ⟨hx.1.2, by rw [← hx.2]; rfl⟩
theorem mk {g0 g1 : G6} {x0 x1 : R6} (h0 : V6 g0 x0) (h1 : V6 g1 x1) : V12 ⟨g0, g1⟩ ⟨x0, x1⟩ :=
  ⟨⟨h0.1, h1.1⟩, G12.ext h0.2 h1.2⟩
theorem conj (hx : V12 g x) : V12 g.conj (S12.conj x) := mk hx.pa hx.pb.neg

theorem mulK (hx : V12 g x) (hy : V12 h y) : Spec (fun k => S12.mulK k x y) (V12 (g * h)) := by
  intro z e
  dsimp only [S12.mulK] at e ⊢
  rw [if_neg (by simp)]
  split at e
  · cases e
  · rename_i hc
    cases e
    have hc : cb x.a y.a < pN ∧ cb x.b y.b < pN ∧ cb (S6.add x.a x.b) (S6.add y.a y.b) < pN := by
      by_contra h; exact hc ⟨rfl, h⟩
    obtain ⟨d, c1, c2, c3, c4, c5⟩ := S12.mul_den hx.1 hy.1 hc.1 hc.2.1
    exact ⟨rfl, ⟨c1, c2, c3, c4, c5 hc.2.2⟩, by rw [d, hx.2, hy.2]⟩

theorem squareK (hx : V12 g x) : Spec (fun k => S12.squareK k x) (V12 (g * g)) := by
  obtain ⟨t, e0, -⟩ := S6.mulGammaAdd_den hx.1.2 hx.1.1
  intro z e
  dsimp only [S12.squareK] at e ⊢
  rw [e0, Res.bind_ok] at e ⊢
  rw [if_neg (by simp)]
  split at e
  · cases e
  · rename_i hc
    have hc : cb x.b x.a < pN ∧ cb (S6.add x.a x.b) t < pN := by
      by_contra h; exact hc ⟨rfl, h⟩
    obtain ⟨z', e1, c, d⟩ := S12.square_den hx.1 hc.1 (by
      intro t' e'; rw [e0] at e'; cases e'; exact hc.2)
    rw [e1] at e
    cases e
    exact ⟨e1, c, by rw [d, hx.2]⟩

theorem frobenius (hx : V12 g x) : V12 (g ^ p) (S12.frobenius x) := by
  have := mk (V6.mk hx.pa.pa.cj (hx.pa.pb.cj.mul (gammar_val 1)) (hx.pa.pc.cj.mul (gammar_val 3)))
    (V6.mk (hx.pb.pa.cj.mul (gammar_val 0)) (hx.pb.pb.cj.mul (gammar_val 2)) (hx.pb.pc.cj.mul (gammar_val 4)))
  refine ⟨this.1, this.2.trans ?_⟩
  conv_rhs => rw [G12.eq_mk6 g, G12.mk6_pow_p]
  refine G12.ext (G6.ext ?_ ?_ ?_) (G6.ext ?_ ?_ ?_) <;> simp only [G12.mk6] <;> ring

theorem frobenius2 (hx : V12 g x) : V12 (g ^ (p ^ 2)) (S12.frobenius2 x) := by
  have hb : ∀ i : ℕ, (G2.om ^ i).b = 0 := by
    intro i
    rw [G2.om, ← G2.incl_apply, ← map_pow]; rfl
  have := mk (V6.mk hx.pa.pa (hx.pa.pb.mulFp0 (gammar2_val 1) (hb _)) (hx.pa.pc.mulFp0 (gammar2_val 3) (hb _)))
    (V6.mk (hx.pb.pa.mulFp0 (gammar2_val 0) (hb _)) (hx.pb.pb.mulFp0 (gammar2_val 2) (hb _))
      (hx.pb.pc.mulFp0 (gammar2_val 4) (hb _)))
  refine ⟨this.1, this.2.trans ?_⟩
  conv_rhs => rw [G12.eq_mk6 g, G12.mk6_pow_p2]
  have h1 := G2.gam_norm 1
  rw [pow_one, pow_one] at h1
  rw [h1]
  simp only [G2.gam_norm, G12.mk6, Nat.reduceAdd, pow_one]

theorem frobenius3 (hx : V12 g x) : V12 (g ^ (p ^ 3)) (S12.frobenius3 x) := by
  have := mk (V6.mk hx.pa.pa.cj (hx.pa.pb.cj.mul (gammar3_val 1)) (hx.pa.pc.cj.mul (gammar3_val 3)))
    (V6.mk (hx.pb.pa.cj.mul (gammar3_val 0)) (hx.pb.pb.cj.mul (gammar3_val 2)) (hx.pb.pc.cj.mul (gammar3_val 4)))
  refine ⟨this.1, this.2.trans ?_⟩
  rw [show p ^ 3 = p ^ 2 * p by rw [← pow_succ], pow_mul]
  have h1 := G2.gam_norm 1
  rw [pow_one, pow_one] at h1
  conv_rhs => rw [G12.eq_mk6 g, G12.mk6_pow_p2, h1]
  simp only [G2.gam_norm]
  rw [G12.mk6_pow_p]
  have hc : ∀ i : ℕ, (G2.om ^ i).conj = G2.om ^ i := by
    intro i
    rw [G2.om, ← G2.incl_apply, ← map_pow]
    exact G2.ext rfl neg_zero
  have hc1 := hc 1
  rw [pow_one] at hc1
  simp only [G2.conj_mul, hc, hc1]
  refine G12.ext (G6.ext ?_ ?_ ?_) (G6.ext ?_ ?_ ?_) <;> simp only [G12.mk6] <;> ring

theorem norm_coord (s t : G6) : (⟨s.a - G2.xi * t.c, s.b - t.a, s.c - t.b⟩ : G6) = s - G6.v * t := by
  rw [G6.v_mul]
  refine G6.ext ?_ ?_ ?_
  · rw [G6.sub_a]
  · rw [G6.sub_b]
  · rw [G6.sub_c]

theorem inverse (hx : V12 g x) (h0 : g ≠ 0) : Spec (fun k => S12.inverse k x) (V12 g⁻¹) := by
  unfold S12.inverse
  refine Spec.bind (Spec.const hx.pa.square) fun t0 h1 => Spec.bind (Spec.const hx.pb.square) fun t1 h2 =>
    Spec.bind (Spec.const h2.pc.mulXi) fun t2 h3 => ?_
  have h4 := V6.mk (h1.pa.sub h3) (h1.pb.sub h2.pa) (h1.pc.sub h2.pb)
  rw [norm_coord] at h4
  refine Spec.bind (Spec.const (h4.inverse (G12.norm_ne h0))) fun t3 h5 => ?_
  refine Spec.bind (hx.pa.mulK h5) fun a ha => Spec.bind (hx.pb.mulK h5) fun b hb => Spec.pure ?_
  rw [G12.inv_def]
  exact mk ha hb.neg

theorem sqru_den (hx : V12 g x) : ∃ z, S12.sqru x = .ok z ∧ V12
    ⟨⟨3 * (g.a.a * g.a.a + G2.xi * (g.b.b * g.b.b)) - 2 * g.a.a, 3 * (g.b.a * g.b.a + G2.xi * (g.a.c * g.a.c)) - 2 * g.a.b,
      3 * (g.a.b * g.a.b + G2.xi * (g.b.c * g.b.c)) - 2 * g.a.c⟩,
     ⟨3 * (G2.xi * (2 * (g.a.b * g.b.c))) + 2 * g.b.a, 3 * (2 * (g.a.a * g.b.b)) + 2 * g.b.b,
      3 * (2 * (g.b.a * g.a.c)) + 2 * g.b.c⟩⟩ z := by
  obtain ⟨p0, p1⟩ := hx.pa.pa.sqFp4 hx.pb.pb
  obtain ⟨q0, q1⟩ := hx.pb.pa.sqFp4 hx.pa.pc
  obtain ⟨r0, r1⟩ := hx.pa.pb.sqFp4 hx.pb.pc
  obtain ⟨t0, e, ht⟩ := r1.mulXi
  have z0 := p0.sub hx.pa.pa
  have z0 := (z0.add z0).add p0
  have z1 := p1.add hx.pb.pb
  have z1 := (z1.add z1).add p1
  have z4 := q0.sub hx.pa.pb
  have z4 := (z4.add z4).add q0
  have z5 := q1.add hx.pb.pc
  have z5 := (z5.add z5).add q1
  have z2 := ht.add hx.pb.pa
  have z2 := (z2.add z2).add ht
  have z3 := r0.sub hx.pa.pc
  have z3 := (z3.add z3).add r0
  have := mk (V6.mk z0 z4 z3) (V6.mk z2 z1 z5)
  refine ⟨_, ?_, this.1, this.2.trans ?_⟩
  rotate_left
  · refine G12.ext (G6.ext ?_ ?_ ?_) (G6.ext ?_ ?_ ?_) <;> ring
  · unfold S12.sqru
    dsimp only
    rw [e, Res.bind_ok]
    rfl

theorem sqru (hx : V12 g x) (hc : G12.Cyclo g) : ∃ z, S12.sqru x = .ok z ∧ V12 (g * g) z := by
  obtain ⟨i, ii, iii, iv, v, vi, vii, ix⟩ := hc.rels
  obtain ⟨z, e, h1, h2⟩ := hx.sqru_den
  refine ⟨z, e, h1, h2.trans ?_⟩
  conv_rhs => rw [G12.eq_mk6 g, G12.mk6_mul]
  refine G12.ext (G6.ext ?_ ?_ ?_) (G6.ext ?_ ?_ ?_) <;> simp only [G12.mk6]
  · linear_combination 2 * v
  · linear_combination 2 * iii
  · linear_combination 2 * ii
  · linear_combination 2 * i
  · linear_combination 2 * vi
  · linear_combination 2 * iv

theorem easy_p {g : G12} (h0 : g ≠ 0) : g.conj * g⁻¹ * (g.conj * g⁻¹) ^ (p ^ 2) = g ^ ((p ^ 6 - 1) * (p ^ 2 + 1)) := by
  rw [← G12.pow_p6]
  generalize p ^ 2 = B
  have hA : 1 ≤ p ^ 6 := Nat.pow_pos p_pos
  generalize p ^ 6 = A at *
  rw [mul_comm, easy_aux h0 _ _ hA]

theorem mapToCyclo (hx : V12 g x) (h0 : g ≠ 0) :
    Spec (fun k => S12.mapToCyclo k x) (V12 (g ^ ((p ^ 6 - 1) * (p ^ 2 + 1)))) := by
  unfold S12.mapToCyclo
  dsimp only
  refine Spec.bind (hx.inverse h0) fun a ha => Spec.bind (hx.conj.mulK ha) fun b hb => ?_
  rw [← easy_p h0]
  exact hb.mulK hb.frobenius2

/-! ### Powers of an element of the cyclotomic subgroup -/

variable {f : G12}
theorem mulP (hf : f ≠ 0) {i j : ℤ} (hx : V12 (f ^ i) x) (hy : V12 (f ^ j) y) :
    Spec (fun k => S12.mulK k x y) (V12 (f ^ (i + j))) := by
  rw [zpow_add₀ hf]; exact hx.mulK hy
theorem sqruP (hf : G12.Cyclo f) {i : ℤ} (hx : V12 (f ^ i) x) : ∃ z, S12.sqru x = .ok z ∧ V12 (f ^ (2 * i)) z := by
  rw [two_mul, zpow_add₀ hf.ne]; exact hx.sqru (hf.zpow i)
theorem conjP (hf : G12.Cyclo f) {i : ℤ} (hx : V12 (f ^ i) x) : V12 (f ^ (-i)) (S12.conj x) := by
  have := hx.conj
  rw [eq_inv_of_mul_eq_one_left (hf.zpow i).unit, ← zpow_neg] at this
  exact this
theorem frobP {i : ℤ} (hx : V12 (f ^ i) x) : V12 (f ^ (i * p)) (S12.frobenius x) := by
  rw [zpow_mul, zpow_natCast]; exact hx.frobenius
theorem frob2P {i : ℤ} (hx : V12 (f ^ i) x) : V12 (f ^ (i * (p : ℤ) ^ 2)) (S12.frobenius2 x) := by
  rw [zpow_mul, ← Nat.cast_pow, zpow_natCast]; exact hx.frobenius2
theorem frob3P {i : ℤ} (hx : V12 (f ^ i) x) : V12 (f ^ (i * (p : ℤ) ^ 3)) (S12.frobenius3 x) := by
  rw [zpow_mul, ← Nat.cast_pow, zpow_natCast]; exact hx.frobenius3

theorem powLoop (hf : G12.Cyclo f) {c : R12} {i : ℤ} (hx : V12 (f ^ i) x) (hc : V12 (f ^ (-i)) c) :
    ∀ (ds : List ℤ), (∀ d ∈ ds, d = 0 ∨ d = 1 ∨ d = -1) → ∀ (n : ℤ) (o : R12), V12 (f ^ (i * n)) o →
      Spec (fun k => S12.powLoop k x c ds o) (V12 (f ^ (i * ds.foldl (fun a d => 2 * a + d) n)))
  | [], _, n, o, ho => Spec.const ⟨o, rfl, ho⟩
  | d :: ds, hd, n, o, ho => by
    unfold S12.powLoop
    refine Spec.bind (Spec.const (ho.sqruP hf)) fun a ha => ?_
    refine Spec.bind (P := V12 (f ^ (i * (2 * n + d)))) ?_ fun b hb => ?_
    · unfold S12.powDigit
      rcases hd d (by simp) with rfl | rfl | rfl
      · simp only [lt_self_iff_false, if_false]
        refine Spec.const ⟨a, rfl, ?_⟩
        rw [show i * (2 * n + 0) = 2 * (i * n) by ring]; exact ha
      · simp only [zero_lt_one, if_true]
        rw [show i * (2 * n + 1) = 2 * (i * n) + i by ring]; exact mulP hf.ne ha hx
      · simp only [show ¬ ((0 : ℤ) < -1) by norm_num, show ((-1 : ℤ) < 0) by norm_num, if_true, if_false]
        rw [show i * (2 * n + -1) = 2 * (i * n) + -i by ring]; exact mulP hf.ne ha hc
    · rw [List.foldl_cons]
      exact powLoop hf hx hc ds (fun e he => hd e (by simp [he])) (2 * n + d) b hb

theorem powNegT (hf : G12.Cyclo f) {i : ℤ} (hx : V12 (f ^ i) x) :
    Spec (fun k => S12.powNegT k x) (V12 (f ^ (-(i * z)))) := by
  unfold S12.powNegT
  refine Spec.bind (powLoop hf hx (hx.conjP hf) _ (by decide) 1 x (by rw [mul_one]; exact hx)) fun o ho => Spec.pure ?_
  rw [show (zReplTbl.drop 1).foldl (fun a d => 2 * a + d) 1 = (z : ℤ) by decide +kernel] at ho
  exact ho.conjP hf

/-- the exponent of the hard part -/
def lamS : ℤ :=
  (12 * z ^ 3 + 12 * z ^ 2 + 6 * z + 1) + p * (12 * z ^ 3 + 6 * z ^ 2 + 4 * z) +
    p ^ 2 * (12 * z ^ 3 + 6 * z ^ 2 + 6 * z) + p ^ 3 * (12 * z ^ 3 + 6 * z ^ 2 + 4 * z - 1)

theorem hardPart (hf : G12.Cyclo f) (hx : V12 f x) : Spec (fun k => S12.hardPart k x) (V12 (f ^ lamS)) := by
  rw [← zpow_one f] at hx
  unfold S12.hardPart
  refine Spec.bind (hx.powNegT hf) fun a1 h1 => ?_
  refine Spec.bind (Spec.const (h1.sqruP hf)) fun f2z h2 => ?_
  refine Spec.bind (Spec.const (h2.sqruP hf)) fun a3 h3 => ?_
  refine Spec.bind (mulP hf.ne h3 h2) fun f6z h4 => ?_
  refine Spec.bind (h4.powNegT hf) fun f6z2 h5 => ?_
  refine Spec.bind (Spec.const (h5.sqruP hf)) fun a h6 => ?_
  refine Spec.bind (h6.powNegT hf) fun f12z3 h7 => ?_
  refine Spec.bind (mulP hf.ne (h7.conjP hf) h5) fun a' h8 => ?_
  refine Spec.bind (mulP hf.ne h8 (h4.conjP hf)) fun a'' h9 => ?_
  refine Spec.bind (mulP hf.ne h9 h2) fun b h10 => ?_
  refine Spec.bind (mulP hf.ne h9 h5) fun z1 h11 => ?_
  refine Spec.bind (mulP hf.ne h11 hx) fun z2 h12 => ?_
  refine Spec.bind (mulP hf.ne h12 h10.frobP) fun z3 h13 => ?_
  refine Spec.bind (mulP hf.ne h13 h9.frob2P) fun z4 h14 => ?_
  refine Spec.bind (mulP hf.ne h10 (hx.conjP hf)) fun b' h15 => ?_
  refine (mulP hf.ne h14 h15.frob3P).mono fun y hy => ?_
  unfold lamS
  generalize (p : ℤ) = P at *
  generalize (z : ℤ) = Z at *
  ring_nf at hy ⊢
  exact hy

theorem easy_cyclo (h0 : g ≠ 0) : G12.Cyclo (g ^ ((p ^ 6 - 1) * (p ^ 2 + 1))) := by
  unfold G12.Cyclo
  rw [← pow_mul, show (p ^ 6 - 1) * (p ^ 2 + 1) * (p ^ 4 - p ^ 2 + 1) = p ^ 12 - 1 by rw [p_eq]; norm_num]
  exact G12.pow_p12_sub h0

theorem finalExp (hx : V12 g x) (h0 : g ≠ 0) :
    Spec (fun k => S12.finalExp k x) (V12 (g ^ ((((p ^ 6 - 1) * (p ^ 2 + 1) : ℕ) : ℤ) * lamS))) := by
  unfold S12.finalExp
  refine Spec.bind (hx.mapToCyclo h0) fun f hf => ?_
  rw [zpow_mul, zpow_natCast]
  exact hardPart (easy_cyclo h0) hf

/-- the factor by which the exponent of `final_exp` differs from (p^12 - 1)/r -/
def mFacS : ℤ := 2 * z * (6 * z ^ 2 + 3 * z + 1)

theorem lamS_eq : (((p ^ 6 - 1) * (p ^ 2 + 1) : ℕ) : ℤ) * lamS = (((p ^ 12 - 1) / r : ℕ) : ℤ) * mFacS := by
  unfold lamS mFacS r z
  rw [p_eq]
  norm_num
theorem mFacS_coprime : Int.gcd mFacS r = 1 := by
  unfold mFacS r z; norm_num
theorem r_dvd : (p ^ 12 - 1) / r * r = p ^ 12 - 1 := by
  unfold r; rw [p_eq]; norm_num
end V12

end Verif.Snark
