import Verif.Snark.Init
import Verif.Pairing.Group

/-! Fp2 of the SNARK build as a field, and its line routines against the group law of the twist. -/

namespace Verif.Snark

open Verif.Hom Verif.Ec

namespace G2

instance : Nontrivial G2 := ⟨0, 1, fun h => zero_ne_one (α := ZMod p) (congrArg G2.a h)⟩

/-- (a - bu) / (a² + b²) -/
noncomputable instance : Inv G2 := ⟨fun x => ⟨x.a / (x.b * x.b + x.a * x.a), -x.b / (x.b * x.b + x.a * x.a)⟩⟩

theorem mul_inv' {x : G2} (h : x ≠ 0) : x * x⁻¹ = 1 := by
  have hn : x.b * x.b + x.a * x.a ≠ 0 := norm_ne (fun ⟨ha, hb⟩ => h (G2.ext ha hb))
  refine G2.ext ?_ ?_
  · show x.a * (x.a / _) - x.b * (-x.b / _) = 1
    rw [← div_self hn]; ring
  · show x.a * (-x.b / _) + x.b * (x.a / _) = 0
    ring

theorem inv_zero' : (0 : G2)⁻¹ = 0 := by
  refine G2.ext ?_ ?_
  · show (0 : ZMod p) / _ = 0; simp
  · show -(0 : ZMod p) / _ = 0; simp

noncomputable instance : Field G2 :=
  { (inferInstance : CommRing G2), (inferInstance : Nontrivial G2), (inferInstance : Inv G2) with
    mul_inv_cancel := fun _ h => mul_inv' h
    inv_zero := inv_zero'
    nnqsmul := _
    nnqsmul_def := fun _ _ => rfl
    qsmul := _
    qsmul_def := fun _ _ => rfl }

instance : DecidableEq G2 := fun x y => decidable_of_iff (x.a = y.a ∧ x.b = y.b)
  ⟨fun h => G2.ext h.1 h.2, fun h => by rw [h]; exact ⟨rfl, rfl⟩⟩

theorem natCast_ne {n : ℕ} (h0 : n ≠ 0) (h : n < p) : (n : G2) ≠ 0 := by
  intro he
  have := congrArg G2.a he
  rw [natCast_a, zero_a, ZMod.natCast_eq_zero_iff] at this
  exact absurd (Nat.le_of_dvd (Nat.pos_of_ne_zero h0) this) (by omega)

end G2

/-- the coefficient of the twist of a curve: b / xi -/
noncomputable def Curve.twist (c : Curve) : G2 := (c.b : G2) / G2.xi

theorem Curve.b_ne (c : Curve) : (c.b : G2) ≠ 0 := by
  cases c
  · exact_mod_cast G2.natCast_ne (n := 3) (by norm_num) (by rw [p_eq]; norm_num)
  · exact_mod_cast G2.natCast_ne (n := 82) (by norm_num) (by rw [p_eq]; norm_num)

theorem Curve.good (c : Curve) : Good c.twist where
  two := by exact_mod_cast G2.natCast_ne (n := 2) (by norm_num) (by rw [p_eq]; norm_num)
  three := by exact_mod_cast G2.natCast_ne (n := 3) (by norm_num) (by rw [p_eq]; norm_num)
  b := div_ne_zero c.b_ne xi_ne

/-- the homogeneous triple denoted by three pairs of buffers -/
noncomputable def triple (X Y Z : R2) : J G2 := ⟨X.sden, Y.sden, Z.sden⟩

theorem dbl_group (c : Curve) {b82 : Bool} {binv X Y Z : R2} (hb : binv.SCan) (hX : X.SCan) (hY : Y.SCan)
    (hZ : Z.SCan) (hf : G2.xi * beta b82 binv = (c.b : G2)) {A : (curve c.twist).Point}
    (hA : RepH c.twist (triple X Y Z) A) :
    ∃ e, pointDblLineEvalWithoutP b82 binv X Y Z = .ok e ∧
    (e.l.a.SCan ∧ e.l.b.SCan ∧ e.l.c.SLt3) ∧ (e.x.SCan ∧ e.y.SCan ∧ e.z.SCan) ∧
    RepH c.twist (triple e.x e.y e.z) (A + A) ∧
    Prop3 (e.l.a.sden / G2.xi, e.l.b.sden, e.l.c.sden) (lin A A) := by
  obtain ⟨e, h1, h2, h3, ⟨l1, l2, l3⟩, x1, x2, x3⟩ := dblLine_den (b82 := b82) hb hX hY hZ
  have ht : beta b82 binv = c.twist := by
    unfold Curve.twist; rw [← hf, mul_div_cancel_left₀ _ xi_ne]
  rw [ht] at l1 x1 x2
  refine ⟨e, h1, h2, h3, ?_⟩
  have := dbl_step c.good hA (T' := triple e.x e.y e.z) x1 x2 x3
  rw [l1, l2, l3, mul_div_cancel_left₀ _ xi_ne]
  exact this

/-- with any other factor the doubling step misses 2A for every A = (x, y) with x, y ≠ 0 -/
theorem dbl_wrong (c : Curve) {b82 : Bool} {binv X Y Z : R2} (hb : binv.SCan) (hX : X.SCan) (hY : Y.SCan)
    (hZ : Z.SCan) (hf : G2.xi * beta b82 binv ≠ (c.b : G2)) {x y : G2} (hn : (curve c.twist).Nonsingular x y)
    (hx0 : x ≠ 0) (hy0 : y ≠ 0) (hA : RepH c.twist (triple X Y Z) (.some x y hn)) :
    ∃ e, pointDblLineEvalWithoutP b82 binv X Y Z = .ok e ∧
    ¬ RepH c.twist (triple e.x e.y e.z) (.some x y hn + .some x y hn) := by
  obtain ⟨e, h1, h2, h3, -, x1, x2, x3⟩ := dblLine_den (b82 := b82) hb hX hY hZ
  refine ⟨e, h1, ?_⟩
  have hg := c.good
  have h4 : (4 : G2) ≠ 0 := by rw [show (4 : G2) = 2 * 2 by norm_num]; exact mul_ne_zero hg.two hg.two
  have h9 : (9 : G2) ≠ 0 := by rw [show (9 : G2) = 3 * 3 by norm_num]; exact mul_ne_zero hg.three hg.three
  have ht : beta b82 binv ≠ c.twist := by
    intro h; apply hf; rw [h]; unfold Curve.twist; rw [mul_div_cancel₀ _ xi_ne]
  have good := (dbl_step hg hA (T' := ⟨(Y.sden ^ 2 - 9 * c.twist * Z.sden ^ 2) * X.sden * Y.sden / 2,
    ((Y.sden ^ 2 + 9 * c.twist * Z.sden ^ 2) ^ 2 - 108 * c.twist ^ 2 * Z.sden ^ 4) / 4, 2 * Y.sden ^ 3 * Z.sden⟩)
    (mul_div_cancel₀ _ hg.two) (mul_div_cancel₀ _ h4) rfl).1
  rcases hA with ⟨-, -, -, h0⟩ | ⟨x', y', hn', z0, ex, ey, he⟩
  · exact absurd h0 (WeierstrassCurve.Affine.Point.some_ne_zero hn)
  obtain ⟨rfl, rfl⟩ : x = x' ∧ y = y' := by simpa using he
  change Z.sden ≠ 0 at z0
  change X.sden = x * Z.sden at ex
  change Y.sden = y * Z.sden at ey
  have hz3 : 2 * Y.sden ^ 3 * Z.sden ≠ 0 := by
    rw [ey]; exact mul_ne_zero (mul_ne_zero hg.two (pow_ne_zero 3 (mul_ne_zero hy0 z0))) z0
  intro bad
  rcases good with ⟨g1, -⟩ | ⟨x4, y4, hn4, -, gx, -, ge⟩
  · exact hz3 g1
  rcases bad with ⟨g1, -⟩ | ⟨x5, y5, hn5, -, fx, -, fe⟩
  · exact hz3 (x3.symm.trans g1)
  obtain ⟨rfl, rfl⟩ : x4 = x5 ∧ y4 = y5 := by simpa using ge.symm.trans fe
  change _ = x4 * (2 * Y.sden ^ 3 * Z.sden) at gx
  change e.x.sden = x4 * e.z.sden at fx
  rw [x3, ← gx] at fx
  rw [fx, mul_div_cancel₀ _ hg.two] at x1
  have : 9 * ((beta b82 binv - c.twist) * (Z.sden ^ 2 * (X.sden * Y.sden))) = 0 := by linear_combination x1
  refine mul_ne_zero h9 (mul_ne_zero (sub_ne_zero.2 ht) (mul_ne_zero (pow_ne_zero 2 z0) ?_)) this
  rw [ex, ey]
  exact mul_ne_zero (mul_ne_zero hx0 z0) (mul_ne_zero hy0 z0)

theorem add_group (c : Curve) {X Y Z Qx Qy : R2} (hX : X.SCan) (hY : Y.SCan) (hZ : Z.SCan) (hx : Qx.SCan)
    (hy : Qy.SCan) {A : (curve c.twist).Point} (hA : RepH c.twist (triple X Y Z) A)
    (hQ : (curve c.twist).Nonsingular Qx.sden Qy.sden) (h0 : A ≠ 0) (hne : A ≠ .some _ _ hQ) :
    ∃ e, pointAddLineEvalWithoutP X Y Z Qx Qy = .ok e ∧
    (e.l.a.SCan ∧ e.l.b.SCan ∧ e.l.c.SCan) ∧ (e.x.SCan ∧ e.y.SCan ∧ e.z.SCan) ∧
    RepH c.twist (triple e.x e.y e.z) (A + .some _ _ hQ) ∧
    Prop3 (e.l.a.sden / G2.xi, e.l.b.sden, e.l.c.sden) (lin A (.some _ _ hQ)) := by
  obtain ⟨e, h1, h2, h3, ⟨l1, l2, l3⟩, x1, x2, x3⟩ := addLine_den hX hY hZ hx hy
  refine ⟨e, h1, h2, h3, ?_⟩
  have := add_step c.good hA hQ h0 hne (T' := triple e.x e.y e.z) x1 x2 x3
  rw [l1, l2, l3, mul_div_cancel_left₀ _ xi_ne]
  exact this

/-- after any sequence of `init` the factor is b / xi for the last curve exactly when the first was SNARK1 or the last
is SNARK2 -/
theorem factor_iff (l : List Curve) (hl : l ≠ []) : ∃ s, St.start.run l = .ok s ∧ s.binv.SCan ∧
    (G2.xi * s.factor = ((l.getLast hl).b : G2) ↔ l.head hl = .snark1 ∨ l.getLast hl = .snark2) := by
  obtain ⟨c, l', rfl⟩ : ∃ c l', l = c :: l' := by cases l with | nil => exact absurd rfl hl | cons c l' => exact ⟨c, l', rfl⟩
  obtain ⟨s, e, k1, k2, k3, k4, k5⟩ := St.start.init_ok c
  have key : ∀ (s' : St) (d : Curve), s'.b82 = decide (c = .snark2) → G2.xi * s'.binv.sden = (d.b : G2) →
      (G2.xi * s'.factor = (d.b : G2) ↔ c = .snark1 ∨ d = .snark2) := by
    intro s' d h1 h2
    unfold St.factor beta
    rw [h1]
    cases c
    · simpa using h2
    · have : decide (Curve.snark2 = .snark2) = true := rfl
      rw [this, if_pos rfl, xi_nine]
      cases d
      · constructor
        · intro h; exact absurd h three_ne
        · rintro (h | h) <;> cases h
      · exact ⟨fun _ => .inr rfl, fun _ => rfl⟩
  have k2' : s.b82 = decide (c = .snark2) := k2
  rcases List.eq_nil_or_concat l' with rfl | ⟨cs, d, rfl⟩
  · refine ⟨s, ?_, k4, key s c k2' k5⟩
    simp only [St.run]; rw [e]; rfl
  · simp only [List.concat_eq_append] at hl ⊢
    obtain ⟨s', e', -, m2, -, m4, m5⟩ := St.run_started k1 cs d
    refine ⟨s', ?_, m4, ?_⟩
    · simp only [St.run]; rw [e, Res.bind_ok]; exact e'
    · have hlast : (c :: (cs ++ [d])).getLast hl = d := by simp
      rw [hlast]
      exact key s' d (m2.trans k2') m5

end Verif.Snark
