import Verif.Pairing.LineRun
import Verif.Props.Pairing

/-! C46, P at infinity in the precomputed form. -/

namespace Verif
open Fp

namespace Pairing
open Miller Ec

theorem norm_inf {P : J Fe} (hP : P.z = 0) : normalizeJac P = ⟨0, 0, 0⟩ := by
  unfold normalizeJac
  exact if_pos ((LawfulFF.eqb_iff _ _).2 hP)

/-- **C46** for P at infinity and any Q the precomputed form gives 0 or 1: the pairing, which is 1, exactly when none of the stored lines
goes through the point (0, 0), that is, when no coefficient `a_` is zero. -/
theorem C46_infinity_P (Q : J F2) {P : J Fe} (hP : P.z = 0) : optAte Q P = 1 ∧
    ∃ f, millerLoop Param.siTbl (precomputeG2 Param.siTbl Q).1 ((normalizeJac P).x, (normalizeJac P).y) = some f ∧
      (f.finalExp = 1 ↔ ∀ c ∈ (precomputeG2 Param.siTbl Q).1, c.l.a ≠ ⟨0, 0⟩) ∧
      (f.finalExp = 0 ↔ ∃ c ∈ (precomputeG2 Param.siTbl Q).1, c.l.a = ⟨0, 0⟩) := by
  refine ⟨(C43_infinity Q P (.inr hP)).1, ?_⟩
  obtain ⟨f, h1, h2, h3⟩ := pre_zero Param.siTbl Q
  refine ⟨f, by rw [norm_inf hP]; exact h1, ?_⟩
  simp only [den_zero_iff, ne_eq] at h2 h3
  by_cases hc : ∃ c ∈ (precomputeG2 Param.siTbl Q).1, c.l.a = ⟨0, 0⟩
  · have e := h2 hc
    refine ⟨⟨fun h => ?_, fun h => ?_⟩, fun _ => hc, fun _ => e⟩
    · rw [e] at h; exact absurd h zero_ne_one
    · obtain ⟨c, a, b⟩ := hc; exact absurd b (h c a)
  · have hn : ∀ c ∈ (precomputeG2 Param.siTbl Q).1, ¬c.l.a = ⟨0, 0⟩ := fun c a b => hc ⟨c, a, b⟩
    have e := h3 hn
    refine ⟨⟨fun _ => hn, fun _ => e⟩, fun h => ?_, fun h => absurd h hc⟩
    rw [e] at h; exact absurd h one_ne_zero

/-- the generator: 70 lines, none through (0, 0) -/
theorem g2_lines : ∀ c ∈ (precomputeG2 Param.siTbl g2).1, c.l.a ≠ ⟨0, 0⟩ := by
  have e : normalizeJac g2 = ⟨Light.h2.f l_g2.x, Light.h2.f l_g2.y, 1⟩ := by
    have e1 : normalizeJac g2 = g2 := by
      unfold normalizeJac
      rw [if_neg (by decide +kernel), if_pos (by decide +kernel)]
    rw [e1]
    have := l_g2_eq
    rw [this]
    unfold Light.Hom.j
    congr 1
  intro c hc h
  exact lRun_f g2_run e c hc ((den_zero_iff c).2 h)

/-- the generator and infinity, stored as (3, 5, 0): the precomputed form gives 1 -/
example : ∃ f, millerLoop Param.siTbl (precomputeG2 Param.siTbl g2).1 ((normalizeJac (⟨3, 5, 0⟩ : J Fe)).x, (normalizeJac (⟨3, 5, 0⟩ : J Fe)).y) = some f ∧
    f.finalExp = 1 := by
  obtain ⟨-, f, h1, h2, -⟩ := C46_infinity_P g2 (P := ⟨3, 5, 0⟩) rfl
  exact ⟨f, h1, h2.2 g2_lines⟩

end Pairing
end Verif
