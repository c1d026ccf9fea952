import Verif.Snark.Phi

/-! SNARK build: the value of the pairing on buffers. -/

namespace Verif.Snark

open Verif.Hom Verif.Ec

namespace Pr
open Cocycle Abs Abs.Setup
open Pairing (conds endVal)

variable {c : Curve} {S : Setup (ZMod p) G2 G12}

theorem conds_ok : ∀ m ∈ conds 3 (siTbl.drop 2), Nat.Coprime m r := by decide +kernel
theorem endVal_ok : endVal 3 (siTbl.drop 2) = 6 * z + 2 := by decide +kernel
theorem two_ok : Nat.Coprime 2 r := by decide +kernel
theorem s_ok : Nat.Coprime (6 * z + 2) r := by decide +kernel
theorem s_le : 6 * z + 2 ≤ p := by decide +kernel
theorem qs_ok : Nat.Coprime (p - (6 * z + 2)) r := by decide +kernel
theorem sq_ok : Nat.Coprime ((6 * z + 2) + p) r := by decide +kernel
theorem sqq_ok : Nat.Coprime ((6 * z + 2) + p + p * p) r := by decide +kernel

theorem fin_conds' (hS : Is c S) {P : ZMod p × ZMod p} (h : S.OnE P) {B : S.E'} (hB : Tor S B) (h0 : B ≠ 0) :
    (S.s • one1 h B).A ≠ 0 ∧ (S.s • one1 h B).A ≠ S.phi B ∧ (S.s • one1 h B).A + S.phi B ≠ 0 ∧
      (S.s • one1 h B).A + S.phi B ≠ -S.phi (S.phi B) := by
  have e : S.s = 6 * z + 2 := hS.s
  refine fin_conds h hB h0 ?_ ?_ ?_ ?_ ?_
  · rw [e, hS.q]; exact s_le
  · rw [e, hS.r]; exact s_ok
  · rw [e, hS.r, hS.q]; exact qs_ok
  · rw [e, hS.r, hS.q]; exact sq_ok
  · rw [e, hS.r, hS.q]; exact sqq_ok

theorem loop_conds (hS : Is c S) {B : S.E'} (hB : Tor S B) (h0 : B ≠ 0) :
    ∀ m ∈ conds 3 (siTbl.drop 2), m • B ≠ 0 := fun m hm => hB.ne h0 (by rw [hS.r]; exact conds_ok m hm)

open WeierstrassCurve.Affine in
/-- the loop without the final exponentiation -/
theorem miller_val (hS : Is c S) {P : ZMod p × ZMod p} (h : S.OnE P) {g : Cfg} (hg : Fit c g) {b : ℕ × ℕ} (hP : VP P b)
    {q1 q2 : G2} {Q : R2 × R2} (hq1 : V2 q1 Q.1) (hq2 : V2 q2 Q.2) (hQ : (curve S.tw).Nonsingular q1 q2)
    (hB : Tor S (.some _ _ hQ)) :
    Spec (fun k => miller k g Q b) (fun y => y.SCan ∧ S.FE y.sden = (ate h (.some _ _ hQ) : G12)) := by
  have h0 : (Point.some _ _ hQ : S.E') ≠ 0 := Point.some_ne_zero hQ
  obtain ⟨f1, f2, f3, f4⟩ := fin_conds' hS h hB h0
  have hs : endVal 3 (siTbl.drop 2) = S.s := by rw [endVal_ok, hS.s]; rfl
  unfold miller
  refine Spec.bind (Spec.const (rel_start h hS hg hP hq1 hq2 hQ (hB.ne h0 (by rw [hS.r]; exact two_ok)))) fun st rs => ?_
  have rl := rel_loop h hS hg hP hq1 hq2 hQ (siTbl.drop 2) st 3 (by norm_num) rs (loop_conds hS hB h0)
  rw [hs] at rl
  refine Spec.bind rl fun st' r' => ?_
  have := rel_finish h hS hP hq1 hq2 hQ r' f1 f2 f3 f4
  rw [ate_eq] at this
  exact this

theorem finalExp_val (hS : Is c S) {f : R12} (hf : f.SCan) (h0 : f.sden ≠ 0) :
    Spec (fun k => S12.finalExp k f) (V12 (S.FE f.sden)) := by
  have := V12.finalExp (g := f.sden) ⟨hf, rfl⟩ h0
  rw [V12.lamS_eq, FE_zpow] at this
  rw [hS.FE]; exact this

open WeierstrassCurve.Affine in
/-- `opt_atePairing` -/
theorem optAte_val (hS : Is c S) {P : ZMod p × ZMod p} (h : S.OnE P) {g : Cfg} (hg : Fit c g) {b : ℕ × ℕ} (hP : VP P b)
    {q1 q2 : G2} {Q : R2 × R2} (hq1 : V2 q1 Q.1) (hq2 : V2 q2 Q.2) (hQ : (curve S.tw).Nonsingular q1 q2)
    (hB : Tor S (.some _ _ hQ)) :
    Spec (fun k => optAte k g Q b) (V12 (ate h (.some _ _ hQ) : G12)) := by
  unfold optAte
  refine Spec.bind (miller_val hS h hg hP hq1 hq2 hQ hB) fun f ⟨hf, e⟩ => ?_
  rw [← e]
  refine finalExp_val hS hf fun h1 => ?_
  rw [h1, map_zero] at e
  exact Units.ne_zero _ e.symm

end Pr
end Verif.Snark
