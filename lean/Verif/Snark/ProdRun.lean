import Verif.Snark.CompRun

/-! SNARK build: a checked run of a product of two Miller loops of the generators, evaluated as in MillerRun.lean. -/

namespace Verif.Snark
namespace Fast

def prod2 (bt : R2) (Q : R2 × R2) (P : ℕ × ℕ) : Res R12 := do
  let f ← miller bt Q P
  str12 f fun f => do
  let f1 ← mulK true oneW f
  str12 f1 fun f1 => do
  let f2 ← mulK true f1 f
  finalExp f2

theorem prod2_sim {c : Cfg} {bt : R2} {P : ℕ × ℕ} {Q : R2 × R2} (hb : c.binv.SCan) (hbt : V2 (beta c.b82 c.binv) bt) (hx : P.1 < p)
    (hy : P.2 < p) (h1 : Q.1.SCan) (h2 : Q.2.SCan) {y : R12} (h : prod2 bt Q P = .ok y) :
    ∃ f f1 f2, Snark.miller true c Q P = .ok f ∧ S12.mulK true oneW f = .ok f1 ∧ S12.mulK true f1 f = .ok f2 ∧
      S12.finalExp true f2 = .ok y := by
  unfold prod2 at h
  obtain ⟨f, e1, h⟩ := bind_eq_ok h
  rw [str12_eq] at h
  obtain ⟨f1, e2, h⟩ := bind_eq_ok h
  rw [str12_eq] at h
  obtain ⟨f2, e3, h⟩ := bind_eq_ok h
  obtain ⟨k1, k2⟩ := miller_sim hb hbt hx hy h1 h2 f e1
  refine ⟨f, f1, f2, k1, ?_, ?_, (finalExp_sim f2 y h).1⟩
  · rw [mulK_eq (by decide +kernel) k2, e2]
  · rw [mulK_eq (mulK_can e2) k2, e3]
end Fast

namespace Pr

theorem prod2_gen (c : Curve) : okAnd (Fast.prod2 (bufB c) (bufQ c) (bufP c)) (fun y => decide (y.a.a.a ≠ montR)) = true := by
  cases c <;> decide +kernel

theorem prod2_model (c : Curve) {g : Cfg} (hg : Fit c g) : ∃ f f1 f2 y, miller true g (bufQ c) (bufP c) = .ok f ∧
    S12.mulK true oneW f = .ok f1 ∧ S12.mulK true f1 f = .ok f2 ∧ S12.finalExp true f2 = .ok y ∧ y.a.a.a ≠ montR := by
  obtain ⟨y, e, h⟩ := okAnd_iff (prod2_gen c)
  have hb : (bufB c).SCan := (bufB_fit c).can
  have hf : V2 (beta g.b82 g.binv) (bufB c) :=
    ⟨hb, mul_left_cancel₀ xi_ne ((bufB_fit c).fac.trans hg.fac.symm)⟩
  obtain ⟨f, f1, f2, k1, k2, k3, k4⟩ := Fast.prod2_sim hg.can hf (bufP_lt c).1 (bufP_lt c).2 (bufQ_can c).1 (bufQ_can c).2 e
  exact ⟨f, f1, f2, y, k1, k2, k3, k4, of_decide_eq_true h⟩

end Pr
end Verif.Snark
