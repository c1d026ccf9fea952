import Verif.Ec.Hom
import Verif.Snark.PairWrong

/-!
SNARK build: `bn::ecop`, `bn::EcT` and the two entry points of the pairing on triples of canonical buffers.  The routines are
templates, so the definitions of `Ec/Model.lean` are used, at the `Fp` and `Fp2` of this build.
-/

namespace Verif.Snark
open Verif.Ec

/-! ### The coordinate types -/

/-- a canonical `Fp` object of this build -/
@[ext] structure C1 where
  n : ℕ
  lt : n < p
  deriving DecidableEq
deriving instance DecidableEq for R2
instance : DecidableEq C2 := fun x y => decidable_of_iff (x.v = y.v) ⟨fun h => by cases x; cases y; cases h; rfl, congrArg _⟩

/-- the value of a result, 0 if there is none -/
def Res.orZero (m : Res ℕ) : ℕ := match m with | .ok y => y | _ => 0

theorem inv_ok {x : ℕ} (hx : x < p) : ∃ y, Snark.inv x = .ok y ∧ y < p ∧ residue y = (residue x)⁻¹ := by
  by_cases h0 : x = 0
  · subst h0
    exact ⟨0, inv_zero, p_pos, by rw [residue_zero, _root_.inv_zero]⟩
  · obtain ⟨y, e, h, k⟩ := inv_spec hx h0
    exact ⟨y, e, h, eq_inv_of_mul_eq_one_right k⟩

/-- `Fp::add`, `Fp::sub`, `Fp::mul`, `Fp::neg`, `Fp::inv`, `Fp(0)`, `Fp(1)` -/
instance : Add C1 := ⟨fun x y => ⟨Snark.add x.n y.n, add_lt x.lt y.lt⟩⟩
instance : Sub C1 := ⟨fun x y => ⟨Snark.sub x.n y.n, sub_lt x.lt y.lt⟩⟩
instance : Mul C1 := ⟨fun x y => ⟨Snark.mul x.n y.n, mul_lt x.lt y.lt⟩⟩
instance : Neg C1 := ⟨fun x => ⟨Snark.neg x.n, neg_lt x.lt⟩⟩
instance : Inv C1 := ⟨fun x => ⟨Res.orZero (Snark.inv x.n), by obtain ⟨y, e, h, -⟩ := inv_ok x.lt; rw [e]; exact h⟩⟩
instance : Zero C1 := ⟨⟨0, p_pos⟩⟩
instance : One C1 := ⟨⟨montR, by decide +kernel⟩⟩
theorem C1.inv_eq (x : C1) : Snark.inv x.n = .ok (x⁻¹).n := by
  obtain ⟨y, e, -⟩ := inv_ok x.lt
  show _ = Res.ok (Res.orZero (Snark.inv x.n))
  rw [e]; rfl
/-- `Fp::square` zm2.h:280, `Fp::isZero` zm2.h:127, `operator==` zm.h:115; the last two do not depend on p -/
instance : FF C1 where
  sq x := ⟨Snark.mul x.n x.n, mul_lt x.lt x.lt⟩
  isZero x := Fp.isZero x.n
  eqb x y := Fp.eq x.n y.n

theorem inv2_ok {x : R2} (hx : x.SCan) : ∃ y, S2.inverse x = .ok y ∧ y.SCan ∧ y.sden = x.sden⁻¹ := by
  by_cases h0 : x.sden = 0
  · have : x = ⟨0, 0⟩ := sden_inj hx zero_can (h0.trans sden_zero.symm)
    subst this
    have e0 : Snark.add (Snark.mul 0 0) (Snark.mul 0 0) = 0 := by decide +kernel
    refine ⟨⟨0, 0⟩, ?_, zero_can, by rw [h0, _root_.inv_zero]⟩
    unfold S2.inverse; dsimp only
    rw [e0, inv_zero, Res.bind_ok]
    decide +kernel
  · obtain ⟨y, e, h, k⟩ := S2.inverse_den hx h0
    exact ⟨y, e, h, eq_inv_of_mul_eq_one_left k⟩

def Res.orZero2 (m : Res R2) : R2 := match m with | .ok y => y | _ => ⟨0, 0⟩

/-- the operators of `Fp2`, `Fp2::inverse`, `Fp2(0)` (`Mul`, `One`: Final.lean) -/
instance : Add C2 := ⟨fun x y => ⟨S2.add x.v y.v, (S2.add_den x.can y.can).1⟩⟩
instance : Sub C2 := ⟨fun x y => ⟨S2.sub x.v y.v, (S2.sub_den x.can y.can).1⟩⟩
instance : Neg C2 := ⟨fun x => ⟨S2.neg x.v, (S2.neg_den x.can).1⟩⟩
instance : Inv C2 := ⟨fun x => ⟨Res.orZero2 (S2.inverse x.v), by obtain ⟨y, e, h, -⟩ := inv2_ok x.can; rw [e]; exact h⟩⟩
instance : Zero C2 := ⟨⟨⟨0, 0⟩, zero_can⟩⟩
theorem C2.inv_eq (x : C2) : S2.inverse x.v = .ok (x⁻¹).v := by
  obtain ⟨y, e, -⟩ := inv2_ok x.can
  show _ = Res.ok (Res.orZero2 (S2.inverse x.v))
  rw [e]; rfl
/-- `Fp2::square`, `isZero` bn.h:364, `operator==` bn.h:537 -/
instance : FF C2 where
  sq x := ⟨S2.square x.v, (S2.square_den x.can).1⟩
  isZero x := Fp.isZero x.v.a && Fp.isZero x.v.b
  eqb x y := Fp.eq x.v.a y.v.a && Fp.eq x.v.b y.v.b

/-! ### The model -/

/-- `EcT<Fp>::isValid`: `isOnECJac3`, bn.h:2361-2373; `Param::b` is an `int` converted by `Fp(int)`.  A value outside the
canonical range is `ub` here; it does not occur. -/
def isValid1 (s : St) (P : J C1) : Res Bool := do
  let b ← Snark.setInt s.b
  if h : b < p then pure (isOnJac3 (fun z => z * ⟨b, h⟩) P) else .ub
/-- `EcT<Fp2>::isValid`: `isOnTwistECJac3`, bn.h:2409-2420 -/
def isValid2 (s : St) (P : J C2) : Res Bool :=
  if h : s.binv.SCan then pure (isOnJac3 (fun z => ⟨s.binv, h⟩ * z) P) else .ub

/-- the affine part of a triple, as passed to `opt_atePairing<Fp>` -/
def affQ (Q : J C2) : R2 × R2 := (Q.x.v, Q.y.v)
def affP (P : J C1) : ℕ × ℕ := (P.x.n, P.y.n)

/-- `opt_atePairing(f, const Ec2& Q, const Ec1& P)`, bn.h:2966-2975 -/
def ecPairing (k : Bool) (g : Cfg) (Q : J C2) (P : J C1) : Res R12 :=
  let Q := normalize Q
  let P := normalize P
  if isInf Q || isInf P then .ok oneW else optAte k g (affQ Q) (affP P)

/-- `opt_atePairingJac`, bn.h:2794-2807 -/
def jacPairing (k : Bool) (g : Cfg) (Q : J C2) (P : J C1) : Res R12 :=
  if FF.eqb Q.z 0 || FF.eqb P.z 0 then .ok oneW else optAte k g (affQ (normalizeJac Q)) (affP (normalizeJac P))

/-! ### Values -/

instance : FF (ZMod p) := ⟨fun x => x * x, fun x => decide (x = 0), fun x y => decide (x = y)⟩
instance : LawfulFF (ZMod p) := ⟨fun _ => rfl, fun _ => decide_eq_true_iff, fun _ _ => decide_eq_true_iff⟩
noncomputable instance : FF G2 := ⟨fun x => x * x, fun x => decide (x = 0), fun x y => decide (x = y)⟩
instance : LawfulFF G2 := ⟨fun _ => rfl, fun _ => decide_eq_true_iff, fun _ _ => decide_eq_true_iff⟩

/-- the element denoted -/
noncomputable def C1.den (x : C1) : ZMod p := residue x.n
noncomputable def C2.den (x : C2) : G2 := x.v.sden
/-- the triple denoted -/
noncomputable abbrev den1 (P : J C1) : J (ZMod p) := ⟨residue P.x.n, residue P.y.n, residue P.z.n⟩
noncomputable abbrev den2 (P : J C2) : J G2 := ⟨P.x.v.sden, P.y.v.sden, P.z.v.sden⟩

theorem C1.den_inj {x y : C1} : x.den = y.den ↔ x = y :=
  ⟨fun h => C1.ext (residue_inj x.lt y.lt h), congrArg _⟩
theorem C2.den_inj {x y : C2} : x.den = y.den ↔ x = y :=
  ⟨fun h => by
    have := sden_inj x.can y.can h
    cases x; cases y; cases this; rfl, congrArg _⟩

theorem hom1 : FHom C1.den where
  add x y := residue_add x.lt y.lt
  sub x y := residue_sub x.lt y.lt
  mul x y := residue_mul x.lt y.lt
  neg x := residue_neg x.lt
  inv x := by
    obtain ⟨y, e, -, h⟩ := inv_ok x.lt
    have := x.inv_eq
    rw [e] at this
    unfold C1.den
    rw [← Res.ok.inj this, h]
  zero := residue_zero
  one := residue_montR
  sq x := residue_mul x.lt x.lt
  isZero x := by
    rw [Bool.eq_iff_iff, LawfulFF.isZero_iff]
    show _ ↔ Fp.isZero x.n = true
    rw [Fp.isZero_iff (lt_W x.lt), show (0 : ZMod p) = C1.den 0 from residue_zero.symm, C1.den_inj]
    exact ⟨congrArg C1.n, fun h => C1.ext h⟩
  eqb x y := by
    rw [Bool.eq_iff_iff, LawfulFF.eqb_iff, C1.den_inj]
    show _ ↔ Fp.eq x.n y.n = true
    rw [Fp.eq_iff (lt_W x.lt) (lt_W y.lt)]
    exact ⟨congrArg C1.n, fun h => C1.ext h⟩

theorem hom2 : FHom C2.den where
  add x y := (S2.add_den x.can y.can).2
  sub x y := (S2.sub_den x.can y.can).2
  mul x y := (S2.mul_den x.can y.can).2
  neg x := (S2.neg_den x.can).2
  inv x := by
    obtain ⟨y, e, -, h⟩ := inv2_ok x.can
    have := x.inv_eq
    rw [e] at this
    unfold C2.den
    rw [← Res.ok.inj this, h]
  zero := sden_zero
  one := one_sden
  sq x := (S2.square_den x.can).2
  isZero x := by
    rw [Bool.eq_iff_iff, LawfulFF.isZero_iff]
    show _ ↔ (Fp.isZero x.v.a && Fp.isZero x.v.b) = true
    rw [Bool.and_eq_true, Fp.isZero_iff (lt_W x.can.1), Fp.isZero_iff (lt_W x.can.2),
      show (0 : G2) = C2.den 0 from sden_zero.symm, C2.den_inj]
    constructor
    · rintro rfl; exact ⟨rfl, rfl⟩
    · obtain ⟨⟨a, b⟩, h⟩ := x
      rintro ⟨h1, h2⟩
      dsimp only at h1 h2
      subst h1; subst h2; rfl
  eqb x y := by
    rw [Bool.eq_iff_iff, LawfulFF.eqb_iff, C2.den_inj]
    show _ ↔ (Fp.eq x.v.a y.v.a && Fp.eq x.v.b y.v.b) = true
    rw [Bool.and_eq_true, Fp.eq_iff (lt_W x.can.1) (lt_W y.can.1), Fp.eq_iff (lt_W x.can.2) (lt_W y.can.2)]
    constructor
    · rintro rfl; exact ⟨rfl, rfl⟩
    · obtain ⟨⟨a, b⟩, h⟩ := x
      obtain ⟨⟨a', b'⟩, h'⟩ := y
      rintro ⟨h1, h2⟩
      dsimp only at h1 h2
      subst h1; subst h2; rfl

theorem jmap1 (P : J C1) : jmap C1.den P = den1 P := rfl
theorem jmap2 (P : J C2) : jmap C2.den P = den2 P := rfl

theorem Curve.good1 (c : Curve) : Good (c.b : ZMod p) := by
  have key : ∀ {S : Abs.Setup (ZMod p) G2 G12}, Pr.Is c S → ∀ b, S.b = b → Good b := by
    rintro S hS b rfl
    exact S.good0
  exact key (Pr.is_setup c) _ (Pr.is_setup c).b

/-- the statics after a sequence of `init` -/
theorem run_binv (l : List Curve) (hl : l ≠ []) : ∃ s, St.start.run l = .ok s ∧ s.b = (l.getLast hl).b ∧ s.binv.SCan ∧
    s.binv.sden = (l.getLast hl).twist := by
  have key : ∀ {x y : G2}, G2.xi * x = y → x = y / G2.xi := fun h => by rw [← h, mul_div_cancel_left₀ _ xi_ne]
  obtain ⟨c, l', rfl⟩ : ∃ c l', l = c :: l' := by cases l with | nil => exact absurd rfl hl | cons c l' => exact ⟨c, l', rfl⟩
  obtain ⟨s, e, k1, k2, k3, k4, k5⟩ := St.start.init_ok c
  rcases List.eq_nil_or_concat l' with rfl | ⟨cs, d, rfl⟩
  · refine ⟨s, ?_, k3, k4, key k5⟩
    simp only [St.run]; rw [e]; rfl
  · simp only [List.concat_eq_append] at hl ⊢
    obtain ⟨s', e', -, m2, m3, m4, m5⟩ := St.run_started k1 cs d
    have hlast : (c :: (cs ++ [d])).getLast hl = d := by simp
    rw [hlast]
    refine ⟨s', ?_, m3, m4, key m5⟩
    simp only [St.run]; rw [e, Res.bind_ok]; exact e'

theorem isValid1_spec {c : Curve} {s : St} (hs : s.b = c.b) (P : J C1) :
    ∃ v, isValid1 s P = .ok v ∧ (v = true ↔ Valid (c.b : ZMod p) (den1 P)) := by
  obtain ⟨b, e, h, hr⟩ := setInt_spec c.b_range.1 c.b_range.2
  refine ⟨isOnJac3 (fun z => z * ⟨b, h⟩) P, ?_, ?_⟩
  · unfold isValid1
    rw [hs, e, Res.bind_ok, dif_pos h]; rfl
  · have f : ∀ x : C1, C1.den (x * ⟨b, h⟩) = (fun z => (c.b : ZMod p) * z) (C1.den x) := fun x => by
      rw [hom1.mul, mul_comm]
      show residue b * _ = _
      rw [hr]
    rw [← hom1.isOnJac3 f, isOnJac3_iff (c.b : ZMod p) _ (fun z => rfl)]
    exact Iff.rfl

theorem isValid2_spec {c : Curve} {s : St} (h : s.binv.SCan) (hs : s.binv.sden = c.twist) (P : J C2) :
    ∃ v, isValid2 s P = .ok v ∧ (v = true ↔ Valid c.twist (den2 P)) := by
  refine ⟨isOnJac3 (fun z => ⟨s.binv, h⟩ * z) P, ?_, ?_⟩
  · unfold isValid2
    rw [dif_pos h]; rfl
  · have f : ∀ x : C2, C2.den ((⟨s.binv, h⟩ : C2) * x) = (fun z => c.twist * z) (C2.den x) := fun x => by
      rw [hom2.mul]
      show s.binv.sden * _ = _
      rw [hs]
    rw [← hom2.isOnJac3 f, isOnJac3_iff c.twist _ (fun z => rfl)]
    exact Iff.rfl

end Verif.Snark
