import Verif.Jit.Mul

/-! The Montgomery reduction block. -/

namespace Verif
namespace Jit
open Fp Reg
set_option linter.unusedSimpArgs false

/-- registers changed by `mont_mod` besides gp1 -/
abbrev modRegs : List Reg := [gt1, gt2, gt3, gt4, gt5, gt6, gt7, gt8, gt9, gt10, gp2, gp3, rax, rdx]

/-- rounds 2, 3, 4 of `mont_mod` -/
theorem modRound_ex (g : Cfg) {c3 c2 c1 c0 h u : Reg} {P : ℕ} {s : St} (sv : Bool)
    (hn : [c3, c2, c1, c0, h, u, gp3, gp1, gt1, gt5, gp2, gt6, rax, rdx].Nodup)
    (hp : s.r gp3 = 8 * P) (hPb : 8 * (P + 4) ≤ B64) (hP : rd4 s.m P = pTbl 1) :
    Ex ([mvi rax Fp.pp, .mul (.r c0), mv gp1 rax] ++ ((if sv then [.toX 1 u] else []) ++ (mul4x1 g (pt gp3) gp1 gt1 gt5 gp2 gt6 u ++
      ((if sv then [.ofX u 1] else []) ++ (add_rr c3 c2 c1 c0 gp1 gt5 gp2 gt6 ++ [orr .adc h rdx]))))) s fun t =>
      (let r := modRound (R4 s.r c3 c2 c1 c0) (s.r h)
       R4 t.r c3 c2 c1 c0 = r.1 ∧ t.r h = r.2.1 ∧ t.cf = some r.2.2) ∧ (sv = true → t.r u = s.r u) ∧
      KeepX [c3, c2, c1, c0, h, u, gp1, gt1, gt5, gp2, gt6, rax, rdx] [1] s t ∧ t.m = s.m := by
  have hr : [rdx, rax, gt6, gp2, gt5, gt1, gp1, gp3, u, h, c0, c1, c2, c3].Nodup := by simpa using List.nodup_reverse.mpr hn
  simp only [List.nodup_cons, List.mem_cons, List.not_mem_nil, or_false, not_or, List.nodup_nil, not_false_eq_true, and_true] at hn hr
  refine .cons (mvi_ok _ _ _) (.cons (mul_ok (src_r _ _)) (.cons (mv_ok _ _ _) ?_))
  -- the saved register
  refine Ex.append (a := if sv then [.toX 1 u] else []) (P := fun t => t.r = Function.update (Function.update (Function.update (Function.update s.r rax pp) rax (pp * s.r c0 % B64)) rdx (pp * s.r c0 / B64)) gp1 (pp * s.r c0 % B64) ∧
      t.m = s.m ∧ (sv = true → t.x 1 = s.r u) ∧ (∀ i, i ∉ [1] → t.x i = s.x i)) ?_ ?_
  · have e : pp % B64 = pp := by decide
    cases sv
    · refine .nil ⟨?_, rfl, by simp, fun i _ => rfl⟩
      simp [setR_r, hn, hr, e]
    · refine .cons (toX_ok _ _ _) (.nil ⟨?_, rfl, fun _ => ?_, fun i hi => ?_⟩)
      · simp [setR_r, hn, hr, e]
      · simp [setR_r, hn, hr]
      · simp at hi; simp [hi]
  rintro s1 ⟨r1, m1, x1, x1'⟩
  refine Ex.append (mul4x1_ex g (Y := P) (by simp [hn, hr]) (by simp [Addr.avoid, pt, hn, hr]) (.pt (by simp [r1, hn, hr, hp]) hPb)) ?_
  rintro s2 ⟨h1, h2, K2, m2⟩
  have k0 := K2.r c0 (by simp [hn, hr])
  have k1 := K2.r c1 (by simp [hn, hr])
  have k2 := K2.r c2 (by simp [hn, hr])
  have k3 := K2.r c3 (by simp [hn, hr])
  have k4 := K2.r h (by simp [hn, hr])
  have f0 := congrArg W4.w0 h1
  have f1 := congrArg W4.w1 h1
  have f2 := congrArg W4.w2 h1
  have f3 := congrArg W4.w3 h1
  simp [R4, r1, m1, hP, Function.update_of_ne, hn, hr] at h2 k0 k1 k2 k3 k4 f0 f1 f2 f3
  rw [Nat.mul_comm pp] at f0 f1 f2 f3 h2
  refine Ex.append (a := if sv then [.ofX u 1] else []) (P := fun t => (∀ q, q ≠ u → t.r q = s2.r q) ∧ (sv = true → t.r u = s.r u) ∧ t.x = s2.x ∧ t.m = s2.m) ?_ ?_
  · cases sv
    · exact .nil ⟨fun _ _ => rfl, by simp, rfl, rfl⟩
    · refine .cons (ofX_ok _ _ _) (.nil ⟨fun q hq => ?_, fun _ => ?_, rfl, rfl⟩)
      · simp [setR_r, hq]
      · simp [setR_r, K2.x, x1]
  rintro s3 ⟨r3, u3, x3, m3⟩
  refine Ex.append (chain_rr_ex true (by simp [ChainOk, hn, hr]) s3) ?_
  rintro s4 ⟨h4, hc4, K4, m4⟩
  have l4 := K4.r h (by simp [hn, hr])
  have lu := K4.r u (by simp [hn, hr])
  have ld := K4.r rdx (by simp [hn, hr])
  rw [r3 _ (by simp [hn, hr]), k4] at l4
  rw [r3 _ (by simp [hn, hr]), h2] at ld
  have e1 : op4 true (R4 s3.r c3 c2 c1 c0) (R4 s3.r gp1 gt5 gp2 gt6) 0 =
      add4 (R4 s.r c3 c2 c1 c0) (Fp.mul4x1 (pTbl 1) (s.r c0 * pp % B64)).1 0 := by
    simp only [op4, if_true, R4]
    rw [r3 c0 (by simp [hn, hr]), r3 c1 (by simp [hn, hr]), r3 c2 (by simp [hn, hr]), r3 c3 (by simp [hn, hr]),
      r3 gp1 (by simp [hn, hr]), r3 gt5 (by simp [hn, hr]), r3 gp2 (by simp [hn, hr]), r3 gt6 (by simp [hn, hr])]
    rw [k0, k1, k2, k3, f0, f1, f2, f3]
  rw [e1] at h4 hc4
  refine .cons (orr_ok (alu_adc hc4 _ _)) (.nil ⟨⟨?_, ?_, ?_⟩, ?_, ⟨?_, ?_⟩, ?_⟩)
  · refine Eq.trans ?_ h4
    simp [R4, setA_r, hn, hr]
  · simp [setA_r, l4, ld, modRound]
    rfl
  · simp [setA_r, l4, ld, modRound]
    rfl
  · intro hsv
    simp only [setA_r]
    rw [Function.update_of_ne (by simp [hn, hr]), lu]
    exact u3 hsv
  · intro q hq
    have a2 := (K2.mono (M := [c3, c2, c1, c0, h, u, gp1, gt1, gt5, gp2, gt6, rax, rdx]) (by simp)).r q hq
    have a4 := (K4.mono (M := [c3, c2, c1, c0, h, u, gp1, gt1, gt5, gp2, gt6, rax, rdx]) (by simp)).r q hq
    simp only [List.mem_cons, List.not_mem_nil, or_false, not_or] at hq
    have a3 := r3 q hq.2.2.2.2.2.1
    simp only [setA_r]
    rw [Function.update_of_ne hq.2.2.2.2.1, a4, a3, a2, r1]
    simp [hq]
  · intro i hi
    show s4.x i = s.x i
    rw [K4.x, x3, K2.x]
    exact x1' i hi
  · exact m4.trans (m3.trans (m2.trans m1))

/-- the first round of `mont_mod` -/
theorem modRound1_ex (g : Cfg) {X P : ℕ} {s : St} (hx : s.r gp2 = 8 * X) (hX : 8 * (X + 8) ≤ B64) (hq : s.r gt7 = s.m X * pp % B64)
    (h1 : s.r gp1 = s.m X) (hp : s.r gp3 = 8 * P) (hPb : 8 * (P + 4) ≤ B64) (hP : rd4 s.m P = pTbl 1) :
    Ex (mul4x1 g (pt gp3) gt7 gt4 gt3 gt2 gt1 gt8 ++
      [orr .add gt1 gp1, orm .adc gt2 (pt gp2 8), orm .adc gt3 (pt gp2 16), orm .adc gt7 (pt gp2 24),
       ld gt4 (pt gp2 32), orr .adc gt4 rdx, ld gt8 (pt gp2 40), ori .adc gt8 0, ld gt9 (pt gp2 48), ori .adc gt9 0,
       ld gt10 (pt gp2 56), ori .adc gt10 0]) s fun t =>
      (let x := rd8 s.m X
       let r1 := modRound x.lo x.hi.w0
       let a1 := adc x.hi.w1 0 r1.2.2
       let a2 := adc x.hi.w2 0 a1.2
       let a3 := adc x.hi.w3 0 a2.2
       R4 t.r gt4 gt7 gt3 gt2 = ⟨r1.1.w1, r1.1.w2, r1.1.w3, r1.2.1⟩ ∧ t.r gt8 = a1.1 ∧ t.r gt9 = a2.1 ∧ t.r gt10 = a3.1) ∧
      Keep [gt7, gt4, gt3, gt2, gt1, gt8, gt9, gt10, rax, rdx] s t ∧ t.m = s.m := by
  refine Ex.append (mul4x1_ex g (Y := P) (by decide) (by decide) (.pt (by simpa using hp) hPb)) ?_
  rintro s2 ⟨h2, h3, K2, m2⟩
  have k0 := K2.r gp1 (by decide)
  have k1 := K2.r gp2 (by decide)
  have f0 := congrArg W4.w0 h2
  have f1 := congrArg W4.w1 h2
  have f2 := congrArg W4.w2 h2
  have f3 := congrArg W4.w3 h2
  rw [hP, hq] at h3 f0 f1 f2 f3
  rw [h1] at k0
  rw [hx] at k1
  simp only [R4] at f0 f1 f2 f3
  have pp' : ∀ (k : ℕ) (r' : Reg → ℕ), k < 8 → r' gp2 = s2.r gp2 → Ptr r' (pt gp2 (8 * k)) (X + k) 1 :=
    fun k r' hk h => .pt (by rw [h, k1]; omega) (by omega)
  refine .cons (orr_ok (alu_add _ _ _)) (.cons (orm_ok (pp' 1 _ (by omega) (by simp [setA_r])) (by omega) (alu_adc (by rfl) _ _))
    (.cons (orm_ok (pp' 2 _ (by omega) (by simp [setA_r])) (by omega) (alu_adc (by rfl) _ _))
    (.cons (orm_ok (pp' 3 _ (by omega) (by simp [setA_r])) (by omega) (alu_adc (by rfl) _ _)) ?_)))
  refine .cons (ld_ok (pp' 4 _ (by omega) (by simp [setA_r])) (by omega)) (.cons (orr_ok (alu_adc (by rfl) _ _))
    (.cons (ld_ok (pp' 5 _ (by omega) (by simp [setA_r, setR_r])) (by omega)) (.cons (ori_ok (alu_adc (by rfl) _ _))
    (.cons (ld_ok (pp' 6 _ (by omega) (by simp [setA_r, setR_r])) (by omega)) (.cons (ori_ok (alu_adc (by rfl) _ _))
    (.cons (ld_ok (pp' 7 _ (by omega) (by simp [setA_r, setR_r])) (by omega)) (.cons (ori_ok (alu_adc (by rfl) _ _)) (.nil ?_))))))))
  refine ⟨⟨?_, ?_, ?_, ?_⟩, ⟨?_, K2.x⟩, m2⟩
  · simp [R4, setA_r, setR_r, modRound, add4, rd8, rd4, f0, f1, f2, f3, h3, k0, m2, adc_comm _ (s.m X), adc_comm _ (s.m (X + 1)),
      adc_comm _ (s.m (X + 2)), adc_comm _ (s.m (X + 3))]
  · simp [R4, setA_r, setR_r, modRound, add4, rd8, rd4, f0, f1, f2, f3, h3, k0, m2, adc_comm _ (s.m X), adc_comm _ (s.m (X + 1)),
      adc_comm _ (s.m (X + 2)), adc_comm _ (s.m (X + 3))]
  · simp [R4, setA_r, setR_r, modRound, add4, rd8, rd4, f0, f1, f2, f3, h3, k0, m2, adc_comm _ (s.m X), adc_comm _ (s.m (X + 1)),
      adc_comm _ (s.m (X + 2)), adc_comm _ (s.m (X + 3))]
  · simp [R4, setA_r, setR_r, modRound, add4, rd8, rd4, f0, f1, f2, f3, h3, k0, m2, adc_comm _ (s.m X), adc_comm _ (s.m (X + 1)),
      adc_comm _ (s.m (X + 2)), adc_comm _ (s.m (X + 3))]
  · intro q hq
    have a2 := (K2.mono (M := [gt7, gt4, gt3, gt2, gt1, gt8, gt9, gt10, rax, rdx]) (by simp)).r q hq
    simp only [List.mem_cons, List.not_mem_nil, or_false, not_or] at hq
    simp [setA_r, setR_r, hq, a2]

theorem mont_mod_ex (g : Cfg) {Z X : ℕ} {s : St} (hz : s.r gp1 = 8 * Z) (hx : s.r gp2 = 8 * X)
    (hZ : 8 * (Z + 4) ≤ B64) (hX : 8 * (X + 8) ≤ B64) (hg : 8 * (g.pT + 8) ≤ B64) (hP : rd4 s.m (g.pT + 4) = pTbl 1) :
    Ex (mont_mod g) s fun t => t.m = wr4 s.m Z (wMod (rd8 s.m X)) ∧ KeepX modRegs [0, 1] s t := by
  have hpt : pTblAt g 1 % B64 = 8 * (g.pT + 4) := by unfold pTblAt; rw [Nat.mod_eq_of_lt (by omega)]
  have e : mont_mod g = [.toX 0 gp1, ld gp1 (pt gp2), mvi rax Fp.pp, .mul (.r gp1), mvi gp3 (pTblAt g 1), mv gt7 rax] ++
    ((mul4x1 g (pt gp3) gt7 gt4 gt3 gt2 gt1 gt8 ++
      [orr .add gt1 gp1, orm .adc gt2 (pt gp2 8), orm .adc gt3 (pt gp2 16), orm .adc gt7 (pt gp2 24),
       ld gt4 (pt gp2 32), orr .adc gt4 rdx, ld gt8 (pt gp2 40), ori .adc gt8 0, ld gt9 (pt gp2 48), ori .adc gt9 0,
       ld gt10 (pt gp2 56), ori .adc gt10 0]) ++
    (([mvi rax Fp.pp, .mul (.r gt2), mv gp1 rax] ++ ((if true then [.toX 1 gt10] else []) ++ (mul4x1 g (pt gp3) gp1 gt1 gt5 gp2 gt6 gt10 ++
      ((if true then [.ofX gt10 1] else []) ++ (add_rr gt4 gt7 gt3 gt2 gp1 gt5 gp2 gt6 ++ [orr .adc gt8 rdx]))))) ++
    ([ori .adc gt9 0, ori .adc gt10 0] ++
    (([mvi rax Fp.pp, .mul (.r gt3), mv gp1 rax] ++ ((if false then [.toX 1 gt2] else []) ++ (mul4x1 g (pt gp3) gp1 gt1 gt5 gp2 gt6 gt2 ++
      ((if false then [.ofX gt2 1] else []) ++ (add_rr gt8 gt4 gt7 gt3 gp1 gt5 gp2 gt6 ++ [orr .adc gt9 rdx]))))) ++
    ([ori .adc gt10 0] ++
    (([mvi rax Fp.pp, .mul (.r gt7), mv gp1 rax] ++ ((if false then [.toX 1 gt2] else []) ++ (mul4x1 g (pt gp3) gp1 gt1 gt5 gp2 gt6 gt2 ++
      ((if false then [.ofX gt2 1] else []) ++ (add_rr gt9 gt8 gt4 gt7 gp1 gt5 gp2 gt6 ++ [orr .adc gt10 rdx]))))) ++
    (csubCode gt10 gt9 gt8 gt4 gt3 gt2 gt1 gp1 (pt gp3) ++ ([.ofX gp1 0] ++ store_mr (pt gp1) gt10 gt9 gt8 gt4)))))))) := by
    unfold mont_mod csubCode
    simp only [if_true, Bool.false_eq_true, if_false, List.append_assoc, List.cons_append, List.nil_append]
  rw [e]
  refine Ex.append (P := fun t => t.m = s.m ∧ t.r gp2 = 8 * X ∧ t.r gt7 = s.m X * pp % B64 ∧ t.r gp1 = s.m X ∧ t.r gp3 = 8 * (g.pT + 4) ∧
    t.x 0 = 8 * Z ∧ KeepX (gp1 :: modRegs) [0, 1] s t) ?_ ?_
  · have e : pp % B64 = pp := by decide
    refine .cons (toX_ok _ _ _) (.cons (ld_ok (A := X) (n := 8) (.pt (by simp [hx]) (by omega)) (by omega)) (.cons (mvi_ok _ _ _)
      (.cons (mul_ok (src_r _ _)) (.cons (mvi_ok _ _ _) (.cons (mv_ok _ _ _) (.nil ?_))))))
    refine ⟨rfl, ?_, ?_, ?_, ?_, ?_, ?_, ?_⟩
    · simp [setR_r, hx]
    · simp [setR_r, e, Nat.mul_comm pp]
    · simp [setR_r]
    · simp only [setR_r]; simp [hpt]
    · simp [hz]
    · keeps
    · intro i hi
      simp only [List.mem_cons, List.not_mem_nil, or_false, not_or] at hi
      simp [hi]
  rintro t0 ⟨m0, x0, q0, g0, p0, z0, K0⟩
  refine Ex.append (modRound1_ex g (X := X) (P := g.pT + 4) x0 hX (by rw [q0, m0]) (by rw [g0, m0]) p0 (by omega) (by rw [m0]; exact hP)) ?_
  rintro t1 ⟨⟨a1, b1, c1, d1⟩, K1, m1⟩
  rw [m0] at m1 a1 b1 c1 d1
  have p1 := (K1.r gp3 (by decide)).trans p0
  have z1 := (congrFun K1.x 0).trans z0
  have Q1 : KeepX (gp1 :: modRegs) [0, 1] s t1 := K0.trans ((K1.mono (by decide)).toX _)
  clear K0 K1 q0 g0 x0 z0 p0 m0
  refine Ex.append (modRound_ex g (u := gt10) (P := g.pT + 4) true (by decide) p1 (by omega) (by rw [m1]; exact hP)) ?_
  rintro t2 ⟨⟨a2, b2, e2⟩, d2, K2, m2⟩
  rw [m1] at m2
  rw [a1, b1] at a2 b2 e2
  have c2 := (K2.r gt9 (by decide)).trans c1
  replace d2 := (d2 rfl).trans d1
  have p2 := (K2.r gp3 (by decide)).trans p1
  have z2 := (K2.x 0 (by decide)).trans z1
  have Q2 : KeepX (gp1 :: modRegs) [0, 1] s t2 := Q1.trans (K2.mono (by decide) (by decide))
  clear Q1 K2 a1 b1 c1 d1 z1 p1 m1
  obtain ⟨c, hc⟩ : ∃ c, c = (modRound ⟨(modRound (rd8 s.m X).lo (rd8 s.m X).hi.w0).1.w1, (modRound (rd8 s.m X).lo (rd8 s.m X).hi.w0).1.w2,
    (modRound (rd8 s.m X).lo (rd8 s.m X).hi.w0).1.w3, (modRound (rd8 s.m X).lo (rd8 s.m X).hi.w0).2.1⟩
    (adc (rd8 s.m X).hi.w1 0 (modRound (rd8 s.m X).lo (rd8 s.m X).hi.w0).2.2).1).2.2 := ⟨_, rfl⟩
  rw [← hc] at e2
  refine Ex.append (a := [ori .adc gt9 0, ori .adc gt10 0]) (P := fun t => t.r gt9 = (adc (t2.r gt9) 0 c).1 ∧
    t.r gt10 = (adc (t2.r gt10) 0 (adc (t2.r gt9) 0 c).2).1 ∧ Keep [gt9, gt10] t2 t ∧ t.m = t2.m) ?_ ?_
  · refine .cons (ori_ok (alu_adc e2 _ _)) (.cons (ori_ok (alu_adc (by rfl) _ _)) (.nil ⟨?_, ?_, ⟨by keeps, rfl⟩, rfl⟩))
    · simp [setA_r]
    · simp [setA_r]
  rintro t3 ⟨c3, d3, K3, m3⟩
  rw [m2] at m3
  rw [c2] at c3 d3
  rw [d2] at d3
  have p3 := (K3.r gp3 (by decide)).trans p2
  have z3 := (congrFun K3.x 0).trans z2
  have f1 := (K3.r gt3 (by decide)).trans (congrArg W4.w1 a2)
  have f2 := (K3.r gt7 (by decide)).trans (congrArg W4.w2 a2)
  have f3 := (K3.r gt4 (by decide)).trans (congrArg W4.w3 a2)
  have b3 := (K3.r gt8 (by decide)).trans b2
  have Q3 : KeepX (gp1 :: modRegs) [0, 1] s t3 := Q2.trans ((K3.mono (by decide)).toX _)
  clear Q2 K3 a2 b2 c2 d2 z2 p2 m2
  refine Ex.append (modRound_ex g (u := gt2) (P := g.pT + 4) false (by decide) p3 (by omega) (by rw [m3]; exact hP)) ?_
  rintro t4 ⟨⟨a4, b4, e4⟩, -, K4, m4⟩
  rw [m3] at m4
  simp only [R4, f1, f2, f3, b3, c3] at a4 b4 e4
  have d4 := (K4.r gt10 (by decide)).trans d3
  have p4 := (K4.r gp3 (by decide)).trans p3
  have z4 := (K4.x 0 (by decide)).trans z3
  have Q4 : KeepX (gp1 :: modRegs) [0, 1] s t4 := Q3.trans (K4.mono (by decide) (by decide))
  clear Q3 K4 z3 p3 m3 f1 f2 f3 b3 c3 d3 e2
  obtain ⟨r3, hr3⟩ : ∃ r3, r3 = modRound ⟨(modRound ⟨(modRound (rd8 s.m X).lo (rd8 s.m X).hi.w0).1.w1, (modRound (rd8 s.m X).lo (rd8 s.m X).hi.w0).1.w2,
    (modRound (rd8 s.m X).lo (rd8 s.m X).hi.w0).1.w3, (modRound (rd8 s.m X).lo (rd8 s.m X).hi.w0).2.1⟩
    (adc (rd8 s.m X).hi.w1 0 (modRound (rd8 s.m X).lo (rd8 s.m X).hi.w0).2.2).1).1.w1, (modRound ⟨(modRound (rd8 s.m X).lo (rd8 s.m X).hi.w0).1.w1, (modRound (rd8 s.m X).lo (rd8 s.m X).hi.w0).1.w2,
    (modRound (rd8 s.m X).lo (rd8 s.m X).hi.w0).1.w3, (modRound (rd8 s.m X).lo (rd8 s.m X).hi.w0).2.1⟩
    (adc (rd8 s.m X).hi.w1 0 (modRound (rd8 s.m X).lo (rd8 s.m X).hi.w0).2.2).1).1.w2, (modRound ⟨(modRound (rd8 s.m X).lo (rd8 s.m X).hi.w0).1.w1, (modRound (rd8 s.m X).lo (rd8 s.m X).hi.w0).1.w2,
    (modRound (rd8 s.m X).lo (rd8 s.m X).hi.w0).1.w3, (modRound (rd8 s.m X).lo (rd8 s.m X).hi.w0).2.1⟩
    (adc (rd8 s.m X).hi.w1 0 (modRound (rd8 s.m X).lo (rd8 s.m X).hi.w0).2.2).1).1.w3, (modRound ⟨(modRound (rd8 s.m X).lo (rd8 s.m X).hi.w0).1.w1, (modRound (rd8 s.m X).lo (rd8 s.m X).hi.w0).1.w2,
    (modRound (rd8 s.m X).lo (rd8 s.m X).hi.w0).1.w3, (modRound (rd8 s.m X).lo (rd8 s.m X).hi.w0).2.1⟩
    (adc (rd8 s.m X).hi.w1 0 (modRound (rd8 s.m X).lo (rd8 s.m X).hi.w0).2.2).1).2.1⟩
    (adc (adc (rd8 s.m X).hi.w2 0 (adc (rd8 s.m X).hi.w1 0 (modRound (rd8 s.m X).lo (rd8 s.m X).hi.w0).2.2).2).1 0 c).1 := ⟨_, rfl⟩
  rw [← hr3] at a4 b4 e4
  refine Ex.append (a := [ori .adc gt10 0]) (P := fun t => t.r gt10 = (adc (t4.r gt10) 0 r3.2.2).1 ∧ Keep [gt10] t4 t ∧ t.m = t4.m) ?_ ?_
  · refine .cons (ori_ok (alu_adc e4 _ _)) (.nil ⟨?_, ⟨by keeps, rfl⟩, rfl⟩)
    simp [setA_r]
  rintro t5 ⟨d5, K5, m5⟩
  rw [m4] at m5
  rw [d4] at d5
  have p5 := (K5.r gp3 (by decide)).trans p4
  have z5 := (congrFun K5.x 0).trans z4
  have f1 := (K5.r gt7 (by decide)).trans (congrArg W4.w1 a4)
  have f2 := (K5.r gt4 (by decide)).trans (congrArg W4.w2 a4)
  have f3 := (K5.r gt8 (by decide)).trans (congrArg W4.w3 a4)
  have b5 := (K5.r gt9 (by decide)).trans b4
  have Q5 : KeepX (gp1 :: modRegs) [0, 1] s t5 := Q4.trans ((K5.mono (by decide)).toX _)
  clear Q4 K5 a4 b4 d4 z4 p4 m4
  refine Ex.append (modRound_ex g (u := gt2) (P := g.pT + 4) false (by decide) p5 (by omega) (by rw [m5]; exact hP)) ?_
  rintro t6 ⟨⟨a6, b6, -⟩, -, K6, m6⟩
  rw [m5] at m6
  simp only [R4, f1, f2, f3, b5, d5] at a6 b6
  have p6 := (K6.r gp3 (by decide)).trans p5
  have z6 := (K6.x 0 (by decide)).trans z5
  have Q6 : KeepX (gp1 :: modRegs) [0, 1] s t6 := Q5.trans (K6.mono (by decide) (by decide))
  clear Q5 K6 z5 p5 m5 f1 f2 f3 b5 d5 e4
  refine Ex.append (csub_ex2 (P := g.pT + 4) (by decide) (.pt p6 (by omega))) ?_
  rintro t7 ⟨a7, K7, m7⟩
  rw [m6] at m7 a7
  have g1 := congrArg W4.w1 a6
  have g2 := congrArg W4.w2 a6
  have g3 := congrArg W4.w3 a6
  simp only at g1 g2 g3
  simp only [R4, g1, g2, g3, b6, hP] at a7
  refine .cons (ofX_ok _ _ _) ?_
  have z7 : t7.x 0 = 8 * Z := (congrFun K7.x 0).trans z6
  refine (store_mr_ex (A := Z) (.pt (by simp [setR_r, z7]) (by omega))).mono ?_
  rintro u ⟨r1, r2, -, r4⟩
  refine ⟨?_, fun q hq => ?_, fun i hi => ?_⟩
  · rw [r4]
    simp only [setR_m, m7]
    refine congrArg (wr4 s.m Z) ?_
    rw [← addModp_eq] at a7
    refine Eq.trans ?_ (a7.trans (?_ : _ = wMod (rd8 s.m X)))
    · simp [R4, setR_r]
    · rw [hr3, hc]
      unfold wMod
      rfl
  · rw [r1]
    by_cases hq1 : q = gp1
    · subst hq1; simp [setR_r, z7, hz]
    · simp only [setR_r, Function.update_of_ne hq1]
      rw [(K7.mono (M := gp1 :: modRegs) (by decide)).r q (by simp only [List.mem_cons] at hq ⊢; exact not_or.mpr ⟨hq1, hq⟩)]
      exact Q6.r q (by simp only [List.mem_cons] at hq ⊢; exact not_or.mpr ⟨hq1, hq⟩)
  · rw [r2]
    show t7.x i = _
    rw [K7.x]
    exact Q6.x i hi
end Jit
end Verif
