import Verif.Snark.MillerRun
import Verif.Snark.Order
import Verif.Pairing.AbsNondeg

/-! SNARK build: the pairing of the generators, one run for each curve. -/

namespace Verif.Snark
namespace Pr

/-- buffers of a point of the twist -/
def bufQ : Curve → R2 × R2
  | .snark1 => (⟨11461925177900819176832270005713103520318409907105193817603008068482420711462, 9496696083199853777875401760424613833161720860855390556979200160215841136960⟩,
    ⟨18540402224736191443939503902445128293982106376239432540843647066670759668214, 6170940445994484564222204938066213705353407449799250191249554538140978927342⟩)
  | .snark2 => (⟨20985487670232349547698426112981960473603216559126315600313164044143762157061, 18070599149284478907817443672432035636950249758399207508049168518500626922734⟩,
    ⟨9402780653985790578308521465076532525232727729471120400699512718132860544912, 1354097963906008421297147261023722551011906237626639320497470807223714428911⟩)
/-- the point of the curve with x = 1 -/
def genP : Curve → ℕ × ℕ
  | .snark1 => (1, 2)
  | .snark2 => (1, 5054924909742620694744017094434103187340700978658342130987556552346808555587)
def bufP : Curve → ℕ × ℕ
  | .snark1 => (6350874878119819312338956282401532409788428879151445726012394534686998597021, 12701749756239638624677912564803064819576857758302891452024789069373997194042)
  | .snark2 => (6350874878119819312338956282401532409788428879151445726012394534686998597021, 14177202743071915319754965648712919794245692242716313097367656819955439489605)
/-- buffer of b / xi -/
def bufB : Curve → R2
  | .snark1 => ⟨16772280239760917788496391897731603718812008455956943122563801666366297604776, 568440292453150825972223760836185707764922522371208948902804025364325400423⟩
  | .snark2 => ⟨13381388159399823366557795051099241510703237597767364208733475022892534956023, 15537367993719455909907449462855742678907882278146377936676643359958227611562⟩

theorem bufQ_eq (c : Curve) : (bufQ c).1 = ⟨toMont (genN c).1.1, toMont (genN c).1.2⟩ ∧
    (bufQ c).2 = ⟨toMont (genN c).2.1, toMont (genN c).2.2⟩ := by cases c <;> decide +kernel
theorem bufP_eq (c : Curve) : (bufP c).1 = toMont (genP c).1 ∧ (bufP c).2 = toMont (genP c).2 := by
  cases c <;> decide +kernel
theorem bufB_eq (c : Curve) : bInvXi c.b = .ok (bufB c) := by cases c <;> decide +kernel

/-- the checked run on the generators ends, with a value different from 1 -/
theorem run_gen (c : Curve) : okAnd (Fast.optAte (bufB c) (bufQ c) (bufP c)) (fun y => decide (y.a.a.a ≠ montR)) = true := by
  cases c <;> decide +kernel

open Verif.Hom Verif.Ec Abs Abs.Setup
open WeierstrassCurve.Affine (Point)

variable {c : Curve} {S : Setup (ZMod p) G2 G12}

theorem bufB_fit (c : Curve) : Fit c ⟨false, bufB c⟩ := by
  obtain ⟨z, e, h1, h2⟩ := bInvXi_den c.b_range.1 c.b_range.2
  rw [bufB_eq] at e
  cases e
  exact ⟨h1, h2⟩

theorem genP_lt (c : Curve) : (genP c).1 < p ∧ (genP c).2 < p := by cases c <;> decide +kernel
theorem bufP_lt (c : Curve) : (bufP c).1 < p ∧ (bufP c).2 < p := by cases c <;> decide +kernel
theorem genN_can (c : Curve) : (genN c).1.Can ∧ (genN c).2.Can := by cases c <;> decide +kernel
theorem bufQ_can (c : Curve) : (bufQ c).1.SCan ∧ (bufQ c).2.SCan := by cases c <;> decide +kernel
theorem genP_on (c : Curve) : ((genP c).2 ^ 2) % p = ((genP c).1 ^ 3 + c.b.toNat) % p := by cases c <;> decide +kernel

theorem bufP_val (c : Curve) : VP (((genP c).1 : ZMod p), ((genP c).2 : ZMod p)) (bufP c) := by
  obtain ⟨h1, h2⟩ := bufP_eq c
  refine ⟨(bufP_lt c).1, (bufP_lt c).2, ?_, ?_⟩
  · rw [h1, residue_toMont (genP_lt c).1]
  · rw [h2, residue_toMont (genP_lt c).2]

theorem bufQ_val (c : Curve) : V2 (genN c).1.val (bufQ c).1 ∧ V2 (genN c).2.val (bufQ c).2 := by
  obtain ⟨h1, h2⟩ := bufQ_eq c
  refine ⟨⟨(bufQ_can c).1, ?_⟩, (bufQ_can c).2, ?_⟩
  · rw [h1]; exact val_toMont (genN_can c).1
  · rw [h2]; exact val_toMont (genN_can c).2

theorem genP_non (hS : Is c S) : (curve S.b).Nonsingular ((genP c).1 : ZMod p) ((genP c).2 : ZMod p) := by
  refine (curve_nonsingular S.good0 _ _).2 ?_
  have h : (((genP c).2 ^ 2 : ℕ) : ZMod p) = (((genP c).1 ^ 3 + c.b.toNat : ℕ) : ZMod p) :=
    (ZMod.natCast_eq_natCast_iff _ _ _).2 (genP_on c)
  have hb : ((c.b.toNat : ℕ) : ZMod p) = (c.b : ZMod p) := by cases c <;> rfl
  rw [Nat.cast_pow, Nat.cast_add, Nat.cast_pow, hb] at h
  rw [hS.b]; exact h

theorem run_model (c : Curve) {g : Cfg} (hg : Fit c g) : ∃ y, optAte true g (bufQ c) (bufP c) = .ok y ∧ y.a.a.a ≠ montR := by
  obtain ⟨y, e, h⟩ := okAnd_iff (run_gen c)
  have hb : (bufB c).SCan := (bufB_fit c).can
  have hf : V2 (beta g.b82 g.binv) (bufB c) :=
    ⟨hb, mul_left_cancel₀ xi_ne ((bufB_fit c).fac.trans hg.fac.symm)⟩
  obtain ⟨e', -⟩ := Fast.optAte_sim hg.can hf (bufP_lt c).1 (bufP_lt c).2 (bufQ_can c).1 (bufQ_can c).2 y e
  exact ⟨y, e', of_decide_eq_true h⟩

theorem gen_ne (hS : Is c S) : pair (.some _ _ (genN_non hS)) (.some _ _ (genP_non hS)) ≠ 1 := by
  obtain ⟨y, e, h⟩ := run_model c (bufB_fit c)
  have hv := optAte_val hS (OnE.of (genP_non hS)) (bufB_fit c) (bufP_val c) (bufQ_val c).1 (bufQ_val c).2 (genN_non hS)
    (genN_tor hS)
  obtain ⟨-, h1, h2⟩ := hv y e
  intro h3
  rw [pair_some] at h3
  rw [h3, Units.val_one, ← oneW_sden] at h2
  rw [sden12_inj h1 (by decide +kernel) h2] at h
  exact h rfl

theorem nondeg_S (hS : Is c S) {B : S.E'} (hB : Tor S B) (A : S.E0) : pair B A = 1 ↔ B = 0 ∨ A = 0 := by
  refine nondeg ?_ ?_ ?_ (genN_tor hS) (gen_ne hS) hB A
  · rw [hS.r]; exact r_prime
  · rw [hS.r, Nat.card_zmod]; decide +kernel
  · rw [hS.r]; exact not_r2 hS

theorem card_S (hS : Is c S) : Nat.card S.E0 = r := by
  have := card_E0 (S := S) (by rw [hS.r]; exact r_prime) (by rw [hS.r, Nat.card_zmod]; decide +kernel) (genN_tor hS) (gen_ne hS)
  rw [this, hS.r]

end Pr
end Verif.Snark
