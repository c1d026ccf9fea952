import Verif.Props.SnarkComp
import Verif.Snark.CompInfP

/-! Property theorem C78, P at infinity in the precomputed form of the SNARK build. -/

namespace Verif.Snark
open Verif.Ec

/-- **C78** for P at infinity and any canonical buffers Q, on the curve or not: `precomputeG2` ends, and the precomputed form stores
1, which is the pairing, if no stored line goes through (0, 0), that is, no coefficient `a_` is zero, and 0 otherwise; in the code
(k = false) and in the checked run alike.  No product on the way leaves its range. -/
theorem C78_infinity_P {g : Cfg} (hg : g.binv.SCan) (Q : J C2) {P : J C1} (hP : P.z = 0) (k : Bool) :
    jacPairing k g Q P = .ok oneW ∧ oneW.sden = 1 ∧
    ∃ cs, precomputeG2 g Q = .ok (cs, normalizeJac Q) ∧
      (prePairing k g Q P = .ok oneW ↔ ∀ c ∈ cs, c.a ≠ ⟨0, 0⟩) ∧
      (prePairing k g Q P = .ok ⟨⟨⟨0, 0⟩, ⟨0, 0⟩, ⟨0, 0⟩⟩, ⟨⟨0, 0⟩, ⟨0, 0⟩, ⟨0, 0⟩⟩⟩ ↔ ∃ c ∈ cs, c.a = ⟨0, 0⟩) := by
  have hz : FF.eqb P.z 0 = true := by rw [hP]; decide +kernel
  refine ⟨?_, oneW_sden, ?_⟩
  · unfold jacPairing
    rw [hz, Bool.or_true, if_pos rfl]
  obtain ⟨cs, h⟩ := Fast.preAff_total (Q := affQ (normalizeJac Q)) hg (normalizeJac Q).x.can (normalizeJac Q).y.can
  have e : precomputeG2 g Q = .ok (cs, normalizeJac Q) := by unfold precomputeG2; dsimp only; rw [h]; rfl
  refine ⟨cs, e, ?_⟩
  have e1 : normalizeJac P = ⟨0, 0, 0⟩ := by
    unfold normalizeJac
    exact if_pos hz
  have e2 : prePairing k g Q P = (millerPre k cs (0, 0) >>= S12.finalExp k) := by
    unfold prePairing
    rw [e, Res.bind_ok, e1]; rfl
  rw [e2]
  have hne : (Res.ok oneW : Res R12) ≠ .ok Fast.z12 := by decide +kernel
  rcases Fast.preFinal_zero hg (normalizeJac Q).x.can (normalizeJac Q).y.can h k with ⟨a, b⟩ | ⟨a, c, b1, b2⟩
  · rw [a]
    exact ⟨⟨fun _ => b, fun _ => rfl⟩, fun h => absurd h hne, fun ⟨c, h1, h2⟩ => absurd h2 (b c h1)⟩
  · rw [a]
    exact ⟨⟨fun h => absurd h.symm hne, fun h => absurd b2 (h c b1)⟩, fun _ => ⟨c, b1, b2⟩, fun _ => rfl⟩

namespace Pr

theorem run_inf (c : Curve) : okAnd (Fast.optAte (bufB c) (bufQ c) (0, 0)) (fun y => decide (y.a.a.a = montR)) = true := by
  cases c <;> decide +kernel

end Pr

/-- the generators of both curves: no line goes through (0, 0), the precomputed form with P stored as (0, 1, 0) gives 1 -/
example (c : Curve) {g : Cfg} (hg : g.binv.SCan) (hf : G2.xi * beta g.b82 g.binv = (c.b : G2)) :
    prePairing true g (tQ c) ⟨0, 1, 0⟩ = .ok oneW := by
  obtain ⟨y, e, h⟩ := okAnd_iff (Pr.run_inf c)
  have hb : (Pr.bufB c).SCan := (Pr.bufB_fit c).can
  have hf : V2 (beta g.b82 g.binv) (Pr.bufB c) := ⟨hb, mul_left_cancel₀ xi_ne ((Pr.bufB_fit c).fac.trans hf.symm)⟩
  obtain ⟨e', -⟩ := Fast.optAte_sim hg hf p_pos p_pos (Pr.bufQ_can c).1 (Pr.bufQ_can c).2 y e
  obtain ⟨-, -, cs, -, h1, h2⟩ := C78_infinity_P hg (tQ c) (P := ⟨0, 1, 0⟩) rfl true
  refine h1.2 fun d hd h3 => ?_
  have h4 := h2.2 ⟨d, hd, h3⟩
  rw [C78_run hg] at h4
  have e1 : normalizeJac (tQ c) = tQ c := by cases c <;> decide +kernel
  rw [e1] at h4
  have h5 := e'.symm.trans h4
  cases h5
  exact absurd (of_decide_eq_true h) (by decide +kernel)

end Verif.Snark
