import Verif.Snark.Line
import Mathlib.NumberTheory.LegendreSymbol.Basic

/-!
`ParamT::init` of the SNARK build as far as the doubling step depends on it: `b`, `b_invxi` and the branch
compiled into the generated code.  `Fp::setModulo` returns at once on every call but the first, so the code
is generated for the first curve only, while `b` and `b_invxi` follow the last one.
-/

namespace Verif.Snark

/-- `Fp2::inverse`, bn.h:505-514. -/
def S2.inverse (x : R2) : Res R2 := do
  let t := Snark.mul x.b x.b
  let aa := Snark.mul x.a x.a
  let t := Snark.add t aa
  let t ← Snark.inv t
  let a := Snark.mul x.a t
  let b := Snark.neg x.b
  pure ⟨a, Snark.mul b t⟩

/-- `CurveSNARK1`, `CurveSNARK2`, bn.h:77-80: both have z = 4965661367192848881 and xi = 9 + u. -/
inductive Curve | snark1 | snark2
  deriving DecidableEq

/-- the coefficient b, bn.h:77-80 -/
def Curve.b : Curve → ℤ | .snark1 => 3 | .snark2 => 82

/-- `Fp2 xi(cp.xi_a, cp.xi_b); b_invxi = xi; b_invxi.inverse(); b_invxi *= Fp2(b, 0);` bn.h:233-236. -/
def bInvXi (b : ℤ) : Res R2 := do
  let xa ← Snark.setInt 9
  let xb ← Snark.setInt 1
  let xi : R2 := ⟨xa, xb⟩
  let z ← S2.inverse xi
  let ba ← Snark.setInt b
  let bb ← Snark.setInt 0
  pure (S2.mul z ⟨ba, bb⟩)

/-- The statics the doubling step reads. -/
structure St where
  /-- `static bool init` of `Fp::setModulo`, zm2.cpp:3607 -/
  started : Bool
  /-- which branch of zm2.cpp:3074 the generated code contains -/
  b82 : Bool
  /-- `ParamT::b`, bn.h:227 -/
  b : ℤ
  /-- `ParamT::b_invxi`, bn.h:233-236 -/
  binv : R2

/-- before the first `init`: zero-initialised statics, no generated code -/
def St.start : St := ⟨false, false, 0, ⟨0, 0⟩⟩

/-- `ParamT::init(cp)`, bn.h:206-267, with `Fp::setModulo`, zm2.cpp:3592-3690. -/
def St.init (s : St) (c : Curve) : Res St := do
  let binv ← bInvXi c.b
  pure ⟨true, if s.started then s.b82 else decide (c.b = 82), c.b, binv⟩

/-- a sequence of calls of `init` -/
def St.run (s : St) : List Curve → Res St
  | [] => .ok s
  | c :: cs => do
    let s ← s.init c
    s.run cs

/-- the factor by which the generated doubling step multiplies in place of b / xi -/
noncomputable def St.factor (s : St) : G2 := beta s.b82 s.binv

theorem norm_ne {a b : ZMod p} (h : ¬ (a = 0 ∧ b = 0)) : b * b + a * a ≠ 0 := by
  intro h0
  have hp4 : p % 4 = 3 := by rw [p_eq]
  have hns : ¬ IsSquare (-1 : ZMod p) := by
    rw [ZMod.exists_sq_eq_neg_one_iff]; omega
  by_cases hb : b = 0
  · apply h
    refine ⟨?_, hb⟩
    rw [hb] at h0
    simpa using h0
  · apply hns
    refine ⟨a / b, ?_⟩
    field_simp
    linear_combination -h0

theorem S2.inverse_den {x : R2} (hx : x.SCan) (h0 : x.sden ≠ 0) :
    ∃ z, S2.inverse x = .ok z ∧ z.SCan ∧ z.sden * x.sden = 1 := by
  have h1 := mul_lt hx.2 hx.2
  have h2 := mul_lt hx.1 hx.1
  have h3 := add_lt h1 h2
  have hr : residue (Snark.add (Snark.mul x.b x.b) (Snark.mul x.a x.a)) =
      residue x.b * residue x.b + residue x.a * residue x.a := by
    rw [residue_add h1 h2, residue_mul hx.2 hx.2, residue_mul hx.1 hx.1]
  have hne : residue x.b * residue x.b + residue x.a * residue x.a ≠ 0 := by
    apply norm_ne
    rintro ⟨ha, hb⟩
    exact h0 (G2.ext ha hb)
  obtain ⟨t, e, ht, hi⟩ := inv_spec h3 (by
    intro h
    rw [h, residue_zero] at hr
    exact hne hr.symm)
  rw [hr] at hi
  have hn := neg_lt hx.2
  refine ⟨⟨Snark.mul x.a t, Snark.mul (Snark.neg x.b) t⟩, ?_, ⟨mul_lt hx.1 ht, mul_lt hn ht⟩, ?_⟩
  · unfold S2.inverse; dsimp only; rw [e, Res.bind_ok]; rfl
  · refine G2.ext ?_ ?_
    · rw [G2.mul_a, R2.sden_a, R2.sden_b]
      dsimp only
      rw [residue_mul hx.1 ht, residue_mul hn ht, residue_neg hx.2, G2.one_a, ← hi]
      simp only [R2.sden]; ring
    · rw [G2.mul_b, G2.one_b]
      show residue (Snark.mul x.a t) * residue x.b + residue (Snark.mul (Snark.neg x.b) t) * residue x.a = 0
      rw [residue_mul hx.1 ht, residue_mul hn ht, residue_neg hx.2]
      ring

theorem xi_ne : G2.xi ≠ 0 := by
  intro h
  have := congrArg G2.b h
  exact one_ne_zero (α := ZMod p) this

/-- `b_invxi` is b / xi -/
theorem bInvXi_den {b : ℤ} (h1 : -2 ^ 31 < b) (h2 : b < 2 ^ 31) :
    ∃ z, bInvXi b = .ok z ∧ z.SCan ∧ G2.xi * z.sden = (b : G2) := by
  obtain ⟨xa, ea, la, ra⟩ := setInt_spec (x := 9) (by norm_num) (by norm_num)
  obtain ⟨xb, eb, lb, rb⟩ := setInt_spec (x := 1) (by norm_num) (by norm_num)
  obtain ⟨ba, ec, lc, rc⟩ := setInt_spec h1 h2
  obtain ⟨bb, ed, ld, rd⟩ := setInt_spec (x := 0) (by norm_num) (by norm_num)
  have hxi : (⟨xa, xb⟩ : R2).sden = G2.xi := G2.ext (by rw [R2.sden_a, ra]; norm_num [G2.xi])
    (by rw [R2.sden_b, rb]; norm_num [G2.xi])
  obtain ⟨z, ez, hz, hm⟩ := S2.inverse_den (x := ⟨xa, xb⟩) ⟨la, lb⟩ (by rw [hxi]; exact xi_ne)
  obtain ⟨m1, m2⟩ := S2.mul_den hz (y := ⟨ba, bb⟩) ⟨lc, ld⟩
  refine ⟨_, ?_, m1, ?_⟩
  · unfold bInvXi
    rw [ea, Res.bind_ok, eb, Res.bind_ok]
    dsimp only
    rw [ez, Res.bind_ok, ec, Res.bind_ok, ed, Res.bind_ok]; rfl
  · rw [hxi] at hm
    have hb : (⟨ba, bb⟩ : R2).sden = (b : G2) := G2.ext (by rw [R2.sden_a, rc]; rfl)
      (by rw [R2.sden_b, rd]; simp [G2.intCast_b])
    rw [m2, hb]
    linear_combination (b : G2) * hm

theorem Curve.b_range (c : Curve) : -2 ^ 31 < c.b ∧ c.b < 2 ^ 31 := by cases c <;> decide

theorem St.init_ok (s : St) (c : Curve) : ∃ s', s.init c = .ok s' ∧ s'.started = true ∧
    s'.b82 = (if s.started then s.b82 else decide (c = .snark2)) ∧ s'.b = c.b ∧ s'.binv.SCan ∧
    G2.xi * s'.binv.sden = (c.b : G2) := by
  obtain ⟨z, e, h1, h2⟩ := bInvXi_den c.b_range.1 c.b_range.2
  refine ⟨⟨true, if s.started then s.b82 else decide (c.b = 82), c.b, z⟩, ?_, rfl, ?_, rfl, h1, h2⟩
  · unfold St.init; rw [e, Res.bind_ok]; rfl
  show (if s.started then s.b82 else decide (c.b = 82)) = _
  have : decide (c.b = 82) = decide (c = .snark2) := by cases c <;> decide
  rw [this]

/-- after the first call the generated branch no longer changes -/
theorem St.run_started {s : St} (hs : s.started = true) (cs : List Curve) (c : Curve) :
    ∃ s', s.run (cs ++ [c]) = .ok s' ∧ s'.started = true ∧ s'.b82 = s.b82 ∧ s'.b = c.b ∧
      s'.binv.SCan ∧ G2.xi * s'.binv.sden = (c.b : G2) := by
  induction cs generalizing s with
  | nil =>
    obtain ⟨s', e, h1, h2, h3, h4, h5⟩ := s.init_ok c
    rw [hs] at h2
    exact ⟨s', by simp only [List.nil_append, St.run]; rw [e]; rfl, h1, h2, h3, h4, h5⟩
  | cons d ds ih =>
    obtain ⟨s', e, h1, h2, -⟩ := s.init_ok d
    rw [hs] at h2
    obtain ⟨s'', e', k1, k2, k3⟩ := ih h1
    refine ⟨s'', ?_, k1, k2.trans h2, k3⟩
    simp only [List.cons_append, St.run]; rw [e, Res.bind_ok]; exact e'

/-- 3 and 82 differ in Fp2 -/
theorem three_ne : ((82 : ℤ) : G2) ≠ ((3 : ℤ) : G2) := by
  intro h
  have h := congrArg G2.a h
  rw [G2.intCast_a, G2.intCast_a, ZMod.intCast_eq_intCast_iff] at h
  have h : (82 : ℤ) % (p : ℤ) = 3 % (p : ℤ) := h
  revert h
  rw [p_eq]
  decide +kernel

theorem xi_nine : G2.xi * (⟨9, -1⟩ : G2) = ((82 : ℤ) : G2) := by
  refine G2.ext ?_ ?_
  · rw [G2.intCast_a]; simp [G2.mul_a, G2.xi]; norm_num
  · rw [G2.intCast_b]; simp [G2.mul_b, G2.xi]

end Verif.Snark
