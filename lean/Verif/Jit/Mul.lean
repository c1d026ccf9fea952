import Verif.Jit.Blocks

/-! The multiplication blocks of the code generator. -/

namespace Verif
namespace Jit

open Fp Reg

set_option linter.unusedSimpArgs false

theorem src_m {s : St} {a : Addr} {A n : ℕ} (h : Ptr s.r a A n) (hn : 0 < n) : src s (.m a) = .ok (s.m A) := load_of s.m h hn
theorem src_r (s : St) (q : Reg) : src s (.r q) = .ok (s.r q) := rfl

theorem alu_add (cf : Option ℕ) (a b : ℕ) : alu cf a b .add = .ok (adc a b 0) := rfl
theorem alu_adc {cf : Option ℕ} {c : ℕ} (h : cf = some c) (a b : ℕ) : alu cf a b .adc = .ok (adc a b c) := by subst h; rfl
theorem alu_sub (cf : Option ℕ) (a b : ℕ) : alu cf a b .sub = .ok (sbb a b 0) := rfl
theorem alu_sbb {cf : Option ℕ} {c : ℕ} (h : cf = some c) (a b : ℕ) : alu cf a b .sbb = .ok (sbb a b c) := by subst h; rfl

theorem adc_comm (a b c : ℕ) : adc a b c = adc b a c := by unfold adc; rw [Nat.add_comm a b]

theorem mul4x1_ex (g : Cfg) {x t3 t2 t1 t0 t : Reg} {py : Addr} {Y : ℕ} {s : St} (hn : [x, t3, t2, t1, t0, t, rax, rdx].Nodup)
    (ha : py.avoid [x, t3, t2, t1, t0, t, rax, rdx]) (hp : Ptr s.r py Y 4) :
    Ex (mul4x1 g py x t3 t2 t1 t0 t) s fun u =>
      R4 u.r x t2 t1 t0 = (Fp.mul4x1 (rd4 s.m Y) (s.r x)).1 ∧ u.r rdx = (Fp.mul4x1 (rd4 s.m Y) (s.r x)).2 ∧
      Keep [x, t3, t2, t1, t0, t, rax, rdx] s u ∧ u.m = s.m := by
  have hr : [rdx, rax, t, t0, t1, t2, t3, x].Nodup := by simpa using List.nodup_reverse.mpr hn
  simp only [List.nodup_cons, List.mem_cons, List.not_mem_nil, or_false, not_or, List.nodup_nil, not_false_eq_true, and_true] at hn hr
  have h0 : ∀ r', (∀ q, q ∉ [x, t3, t2, t1, t0, t, rax, rdx] → r' q = s.r q) → Ptr r' py Y 4 := fun r' h => hp.keep ha h
  have h1 : ∀ r', (∀ q, q ∉ [x, t3, t2, t1, t0, t, rax, rdx] → r' q = s.r q) → Ptr r' (py.plus 8) (Y + 1) 3 :=
    fun r' h => (hp.plus 1 (by omega)).keep (ha.plus _) h
  have h2 : ∀ r', (∀ q, q ∉ [x, t3, t2, t1, t0, t, rax, rdx] → r' q = s.r q) → Ptr r' (py.plus 16) (Y + 2) 2 :=
    fun r' h => (hp.plus 2 (by omega)).keep (ha.plus _) h
  have h3 : ∀ r', (∀ q, q ∉ [x, t3, t2, t1, t0, t, rax, rdx] → r' q = s.r q) → Ptr r' (py.plus 24) (Y + 3) 1 :=
    fun r' h => (hp.plus 3 (by omega)).keep (ha.plus _) h
  by_cases hg : g.useMulx = true
  · rw [mul4x1, if_pos hg]
    refine .cons (mv_ok _ _ _) (.cons (mulx_ok (src_m (h0 _ (by keeps)) (by omega))) (.cons (mulx_ok (src_m (h1 _ (by keeps)) (by omega)))
      (.cons (orr_ok (alu_add _ _ _)) (.cons (mulx_ok (src_m (h2 _ (by keeps)) (by omega))) (.cons (orr_ok (alu_adc (by rfl) _ _))
      (.cons (mulx_ok (src_m (h3 _ (by keeps)) (by omega))) (.cons (orr_ok (alu_adc (by rfl) _ _)) (.cons (ori_ok (alu_adc (by rfl) _ _)) (.nil ?_)))))))))
    refine ⟨?_, ?_, ⟨by keeps, rfl⟩, rfl⟩ <;>
    simp [R4, rd4, Fp.mul4x1, setA_r, setR_r, Function.update_of_ne, hn, hr, adc]
  · rw [mul4x1, if_neg hg]
    refine .cons (ld_ok (h0 _ (by keeps)) (by omega)) (.cons (mul_ok (src_r _ _)) (.cons (mv_ok _ _ _) (.cons (mv_ok _ _ _)
      (.cons (ld_ok (h1 _ (by keeps)) (by omega)) (.cons (mul_ok (src_r _ _)) (.cons (mv_ok _ _ _) (.cons (mv_ok _ _ _)
      (.cons (ld_ok (h2 _ (by keeps)) (by omega)) (.cons (mul_ok (src_r _ _)) (.cons (mv_ok _ _ _) (.cons (mv_ok _ _ _) (.cons (mv_ok _ _ _)
      (.cons (mul_ok (src_m (h3 _ (by keeps)) (by omega))) ?_)))))))))))))
    refine .cons (orr_ok (alu_add _ _ _)) (.cons (orr_ok (alu_adc (by rfl) _ _)) (.cons (orr_ok (alu_adc (by rfl) _ _))
      (.cons (ori_ok (alu_adc (by rfl) _ _)) (.nil ?_))))
    refine ⟨?_, ?_, ⟨by keeps, rfl⟩, rfl⟩ <;>
    simp [R4, rd4, Fp.mul4x1, setA_r, setR_r, Function.update_of_ne, hn, hr, adc, Nat.mul_comm (s.r x)]


set_option maxHeartbeats 800000 in
/-- one Montgomery round; all registers but rsp are in use -/
theorem montgomery1_ex (g : Cfg) {c4 c3 c2 c1 c0 px y p t0 t1 t2 t3 t4 : Reg} {X P : ℕ} {s : St} (isFirst : Bool)
    (hn : [c4, c3, c2, c1, c0, px, y, p, t0, t1, t2, t3, t4, rax, rdx].Nodup)
    (hpx : Ptr s.r (pt px) X 4) (hpp : Ptr s.r (pt p) P 4) (hP : rd4 s.m P = pTbl 1) :
    Ex (montgomery1 g c4 c3 c2 c1 c0 px y p t0 t1 t2 t3 t4 isFirst) s fun u =>
      (let v := if isFirst then montgomery1First (rd4 s.m X) (s.r y) else Fp.montgomery1 (R4 s.r c3 c2 c1 c0) (s.r c4) (rd4 s.m X) (s.r y)
       R4 u.r c4 c3 c2 c1 = v.1 ∧ u.r c0 = v.2) ∧
      Keep [c4, c3, c2, c1, c0, y, t0, t1, t2, t3, t4, rax, rdx] s u ∧ u.m = s.m := by
  have hr : [rdx, rax, t4, t3, t2, t1, t0, p, y, px, c0, c1, c2, c3, c4].Nodup := by simpa using List.nodup_reverse.mpr hn
  simp only [List.nodup_cons, List.mem_cons, List.not_mem_nil, or_false, not_or, List.nodup_nil, not_false_eq_true, and_true] at hn hr
  -- the product
  suffices hsuf : ∀ (a : W4) (a4 : ℕ) (s1 : St), s1.r c0 = a.w0 → s1.r c1 = a.w1 → s1.r c2 = a.w2 → s1.r y = a.w3 → s1.r c4 = a4 →
      Keep [c4, c3, c2, c1, c0, y, t0, t1, t2, t3, t4, rax, rdx] s s1 → s1.m = s.m →
      Ex ([mvi rax pp, .mul (.r c0), mv c3 rax] ++ (mul4x1 g (pt p) c3 t3 t2 t1 t0 t4 ++
        [orr .add c0 t0, orr .adc c1 t1, orr .adc c2 t2, orr .adc c3 y, orr .adc c4 rdx, ori .adc c0 0])) s1 fun u =>
        R4 u.r c4 c3 c2 c1 = (let n := Fp.mul4x1 (pTbl 1) (a.w0 * pp % B64)
          let t := add4 a n.1 0
          (⟨t.1.w1, t.1.w2, t.1.w3, (adc a4 n.2 t.2).1⟩ : W4)) ∧
        u.r c0 = (let n := Fp.mul4x1 (pTbl 1) (a.w0 * pp % B64)
          let t := add4 a n.1 0
          (t.1.w0 + (adc a4 n.2 t.2).2) % B64) ∧
        Keep [c4, c3, c2, c1, c0, y, t0, t1, t2, t3, t4, rax, rdx] s u ∧ u.m = s.m by
    unfold montgomery1
    cases isFirst
    · simp only [Bool.false_eq_true, if_false, List.append_assoc]
      refine (mul4x1_ex g (Y := X) (by simp [hn, hr]) (by simp [Addr.avoid, pt, hn, hr]) hpx).append ?_
      rintro s2 ⟨h1, h2, hK2, hm2⟩
      have k0 := hK2.r c0 (by simp [hn, hr])
      have k1 := hK2.r c1 (by simp [hn, hr])
      have k2 := hK2.r c2 (by simp [hn, hr])
      have k3 := hK2.r c3 (by simp [hn, hr])
      have k4 := hK2.r c4 (by simp [hn, hr])
      have f0 := congrArg W4.w0 h1
      have f1 := congrArg W4.w1 h1
      have f2 := congrArg W4.w2 h1
      have f3 := congrArg W4.w3 h1
      simp only [R4] at f0 f1 f2 f3
      refine (chain_rr_ex true (by simp [ChainOk, hn, hr]) s2).append ?_
      rintro s3 ⟨h3, hc3, hK3, hm3⟩
      have l4 := hK3.r c4 (by simp [hn, hr])
      have ld := hK3.r rdx (by simp [hn, hr])
      have g0 := congrArg W4.w0 h3
      have g1 := congrArg W4.w1 h3
      have g2 := congrArg W4.w2 h3
      have g3 := congrArg W4.w3 h3
      simp only [R4, op4, if_true, add4, k0, k1, k2, k3, f0, f1, f2, f3] at g0 g1 g2 g3 hc3
      rw [k4] at l4
      rw [h2] at ld
      refine .cons (orr_ok (alu_adc hc3 _ _)) ?_
      refine (hsuf (add4 (R4 s.r c3 c2 c1 c0) (Fp.mul4x1 (rd4 s.m X) (s.r y)).1 0).1 _ _ ?_ ?_ ?_ ?_ rfl ⟨?_, ?_⟩ ?_).mono ?_
      rotate_right
      · rintro u ⟨u1, u2, u3, u4⟩
        refine ⟨⟨u1.trans ?_, u2.trans ?_⟩, u3, u4⟩ <;>
        · simp only [Fp.montgomery1, setA_r, Function.update_self, l4, ld, add4, R4, adc_comm _ (s.r c3)]
          rfl
      · simp [setA_r, Function.update_of_ne, hn, hr, g0, add4, R4]
      · simp [setA_r, Function.update_of_ne, hn, hr, g1, add4, R4]
      · simp [setA_r, Function.update_of_ne, hn, hr, g2, add4, R4]
      · simp [setA_r, Function.update_of_ne, hn, hr, g3, add4, R4, adc_comm _ (s.r c3)]
      · intro q hq
        have a1 := (hK2.mono (M := [c4, c3, c2, c1, c0, y, t0, t1, t2, t3, t4, rax, rdx]) (by simp)).r q hq
        have a2 := (hK3.mono (M := [c4, c3, c2, c1, c0, y, t0, t1, t2, t3, t4, rax, rdx]) (by simp)).r q hq
        simp only [List.mem_cons, List.not_mem_nil, or_false, not_or] at hq
        simp [setA_r, Function.update_of_ne, hq, a1, a2]
      · exact hK3.x.trans hK2.x
      · exact hm3.trans hm2
    · simp only [if_true, List.append_assoc]
      refine (mul4x1_ex g (Y := X) (by simp [hn, hr]) (by simp [Addr.avoid, pt, hn, hr]) hpx).append ?_
      rintro s2 ⟨h1, h2, hK2, hm2⟩
      have f0 := congrArg W4.w0 h1
      have f1 := congrArg W4.w1 h1
      have f2 := congrArg W4.w2 h1
      have f3 := congrArg W4.w3 h1
      simp only [R4] at f0 f1 f2 f3
      refine .cons (mv_ok _ _ _) ?_
      refine (hsuf (Fp.mul4x1 (rd4 s.m X) (s.r y)).1 (Fp.mul4x1 (rd4 s.m X) (s.r y)).2 _ ?_ ?_ ?_ ?_ ?_ ⟨?_, ?_⟩ ?_).mono ?_
      rotate_right
      · rintro u ⟨u1, u2, u3, u4⟩
        exact ⟨⟨u1, u2⟩, u3, u4⟩
      · simp [setR_r, Function.update_of_ne, hn, hr, f0]
      · simp [setR_r, Function.update_of_ne, hn, hr, f1]
      · simp [setR_r, Function.update_of_ne, hn, hr, f2]
      · simp [setR_r, Function.update_of_ne, hn, hr, f3]
      · simp [setR_r, h2]
      · intro q hq
        have a1 := (hK2.mono (M := [c4, c3, c2, c1, c0, y, t0, t1, t2, t3, t4, rax, rdx]) (by simp)).r q hq
        simp only [List.mem_cons, List.not_mem_nil, or_false, not_or] at hq
        simp [setR_r, Function.update_of_ne, hq, a1]
      · exact hK2.x
      · exact hm2
  intro a a4 s1 e0 e1 e2 e3 e4 hK hm
  refine .cons (mvi_ok _ _ _) (.cons (mul_ok (src_r _ _)) (.cons (mv_ok _ _ _) ?_))
  refine (mul4x1_ex g (Y := P) (by simp [hn, hr]) (by simp [Addr.avoid, pt, hn, hr]) ?_).append ?_
  · refine hpp.keep (L := [c4, c3, c2, c1, c0, y, t0, t1, t2, t3, t4, rax, rdx]) (by simp [Addr.avoid, pt, hn, hr]) ?_
    intro q hq
    rw [← hK.r q hq]
    revert q; keeps
  rintro s2 ⟨h1, h2, hK2, hm2⟩
  have k0 := hK2.r c0 (by simp [hn, hr])
  have k1 := hK2.r c1 (by simp [hn, hr])
  have k2 := hK2.r c2 (by simp [hn, hr])
  have k3 := hK2.r y (by simp [hn, hr])
  have k4 := hK2.r c4 (by simp [hn, hr])
  have f0 := congrArg W4.w0 h1
  have f1 := congrArg W4.w1 h1
  have f2 := congrArg W4.w2 h1
  have f3 := congrArg W4.w3 h1
  simp [R4, setR_r, Function.update_of_ne, hn, hr, e0, e1, e2, e3, e4, hm, hP] at h2 k0 k1 k2 k3 k4 f0 f1 f2 f3
  rw [Nat.mul_comm pp] at f0 f1 f2 f3 h2
  refine .cons (orr_ok (alu_add _ _ _)) (.cons (orr_ok (alu_adc (by rfl) _ _)) (.cons (orr_ok (alu_adc (by rfl) _ _))
    (.cons (orr_ok (alu_adc (by rfl) _ _)) (.cons (orr_ok (alu_adc (by rfl) _ _)) (.cons (ori_ok (alu_adc (by rfl) _ _)) (.nil ?_))))))
  refine ⟨?_, ?_, ⟨?_, ?_⟩, ?_⟩
  · simp [R4, setA_r, Function.update_of_ne, hn, hr, f0, f1, f2, f3, h2, k0, k1, k2, k3, k4, add4, adc_comm _ a.w3]
  · simp [R4, setA_r, Function.update_of_ne, hn, hr, f0, f1, f2, f3, h2, k0, k1, k2, k3, k4, add4, adc_comm _ a.w3]
    simp only [adc]
    simp
  · intro q hq
    rw [← hK.r q hq]
    have := (hK2.mono (M := [c4, c3, c2, c1, c0, y, t0, t1, t2, t3, t4, rax, rdx]) (by simp)).r q hq
    simp only [List.mem_cons, List.not_mem_nil, or_false, not_or] at hq
    simp [setA_r, setR_r, Function.update_of_ne, hq] at this ⊢
    exact this
  · exact hK2.x.trans hK.x
  · exact hm2.trans hm

/-- the registers changed by `Fp_mul` -/
abbrev mulRegs : List Reg := [gt1, gt2, gt3, gt4, gt5, gt6, gt7, gt8, gt9, gt10, gp3, rax, rdx]

/-- rounds 2, 3, 4 of `Fp_mul` -/
theorem mulRound_ex (g : Cfg) {c4 c3 c2 c1 c0 : Reg} {X Y P k : ℕ} {s : St}
    (hn : [c4, c3, c2, c1, c0, gp2, gp3, gp1, gt5, gt6, gt7, gt9, gt10, rax, rdx].Nodup) (hc : [c4, c3, c2, c1, c0] ⊆ mulRegs)
    (hx : s.r gp2 = 8 * X) (hX : 8 * (X + 4) ≤ B64) (hp : s.r gp1 = 8 * P) (hPb : 8 * (P + 4) ≤ B64) (hP : rd4 s.m P = pTbl 1)
    (hy : s.x 1 = 8 * Y) (hY : 8 * (Y + 4) ≤ B64) (hk : k < 4) :
    Ex ([.ofX gp3 1, ld gp3 (pt gp3 (8 * k))] ++ montgomery1 g c4 c3 c2 c1 c0 gp2 gp3 gp1 gt5 gt6 gt7 gt9 gt10 false) s fun u =>
      (let v := Fp.montgomery1 (R4 s.r c3 c2 c1 c0) (s.r c4) (rd4 s.m X) (s.m (Y + k))
       R4 u.r c4 c3 c2 c1 = v.1 ∧ u.r c0 = v.2) ∧ Keep mulRegs s u ∧ u.m = s.m := by
  have hgp3 : gp3 ∉ [c4, c3, c2, c1, c0] := by
    intro h
    have h2 : gp3 ∈ [gp2, gp3, gp1, gt5, gt6, gt7, gt9, gt10, rax, rdx] := by decide
    have := List.disjoint_of_nodup_append (l₁ := [c4, c3, c2, c1, c0]) (l₂ := [gp2, gp3, gp1, gt5, gt6, gt7, gt9, gt10, rax, rdx]) (by simpa using hn)
    exact this h h2
  simp only [List.mem_cons, List.not_mem_nil, or_false, not_or] at hgp3
  simp only [List.cons_append, List.nil_append]
  refine .cons (ofX_ok _ _ _) (.cons (ld_ok (A := Y + k) (n := 4 - k) (.pt (by simp [setR_r, hy]; omega) (by omega)) (by omega)) ?_)
  refine Ex.mono (montgomery1_ex g (X := X) (P := P) false hn (.pt ?_ hX) (.pt ?_ hPb) (by exact hP)) ?_
  · simp [setR_r, Function.update_of_ne, hx]
  · simp [setR_r, Function.update_of_ne, hp]
  rintro u ⟨⟨h1, h2⟩, hK, hm⟩
  simp only [Bool.false_eq_true, if_false, setR_r, setR_m, Function.update_self] at h1 h2
  have e4 : R4 (Function.update (Function.update s.r gp3 (s.x 1)) gp3 (s.m (Y + k))) c3 c2 c1 c0 = R4 s.r c3 c2 c1 c0 := by
    simp [R4, Function.update_of_ne, Ne.symm hgp3.1, Ne.symm hgp3.2.1, Ne.symm hgp3.2.2.1, Ne.symm hgp3.2.2.2.1, Ne.symm hgp3.2.2.2.2]
  have e5 : (Function.update (Function.update s.r gp3 (s.x 1)) gp3 (s.m (Y + k))) c4 = s.r c4 := by
    simp [Function.update_of_ne, Ne.symm hgp3.1]
  rw [e4, e5] at h1 h2
  refine ⟨⟨h1, h2⟩, ⟨?_, hK.x⟩, hm⟩
  intro q hq
  have hsub : [c4, c3, c2, c1, c0, gp3, gt5, gt6, gt7, gt9, gt10, rax, rdx] ⊆ mulRegs := by
    intro a ha
    have : a ∈ [c4, c3, c2, c1, c0] ++ [gp3, gt5, gt6, gt7, gt9, gt10, rax, rdx] := ha
    rw [List.mem_append] at this
    rcases this with h | h
    · exact hc h
    · exact (by decide : [gp3, gt5, gt6, gt7, gt9, gt10, rax, rdx] ⊆ mulRegs) h
  rw [hK.r q fun h => hq (hsub h)]
  have : q ≠ gp3 := by rintro rfl; exact hq (by decide)
  simp [setR_r, Function.update_of_ne, this]

theorem Fp_mul_ex (g : Cfg) {Z X Y : ℕ} {s : St} (hz : s.r gp1 = 8 * Z) (hx : s.r gp2 = 8 * X) (hy : s.r gp3 = 8 * Y)
    (hZ : 8 * (Z + 4) ≤ B64) (hX : 8 * (X + 4) ≤ B64) (hY : 8 * (Y + 4) ≤ B64) (hg : 8 * (g.pT + 8) ≤ B64)
    (hP : rd4 s.m (g.pT + 4) = pTbl 1) :
    Ex (Fp_mul g) s fun t => t.m = wr4 s.m Z (wMul (rd4 s.m X) (rd4 s.m Y)) ∧ KeepX mulRegs [0, 1] s t := by
  unfold Fp_mul
  simp only [List.append_assoc, List.cons_append, List.nil_append]
  refine .cons (toX_ok _ _ _) (.cons (mvi_ok _ _ _) (.cons (toX_ok _ _ _) (.cons (ld_ok (A := Y) (n := 4)
    (.pt (by simp [setR_r, Function.update_of_ne, hy]) (by omega)) (by omega)) ?_)))
  have hpt : pTblAt g 1 % B64 = 8 * (g.pT + 4) := by unfold pTblAt; rw [Nat.mod_eq_of_lt (by omega)]
  refine Ex.append (montgomery1_ex g (X := X) (P := g.pT + 4) true (by decide) (.pt ?_ hX) (.pt ?_ (by omega)) (by exact hP)) ?_
  · simp [setR_r, Function.update_of_ne, hx]
  · simp only [setR_r]; simp [setR_r, Function.update_of_ne]; exact hpt
  rintro t1 ⟨⟨a1, a2⟩, K1, m1⟩
  have x1 := K1.r gp2 (by decide)
  have p1 := K1.r gp1 (by decide)
  have y1 := congrFun K1.x 1
  have z1 := congrFun K1.x 0
  simp [setR_r, Function.update_of_ne, hz, hx, hy] at a1 a2 x1 y1 z1
  replace m1 : t1.m = s.m := m1
  replace p1 : t1.r gp1 = 8 * (g.pT + 4) := p1.trans (by simp [setR_r, Function.update_of_ne]; exact hpt)
  have Q1 : KeepX (gp1 :: mulRegs) [0, 1] s t1 := by
    refine ⟨fun q hq => ?_, fun i hi => ?_⟩
    · rw [(K1.mono (M := gp1 :: mulRegs) (by decide)).r q hq]
      simp only [List.mem_cons, List.not_mem_nil, or_false, not_or] at hq
      simp [setR_r, Function.update_of_ne, hq]
    · simp only [List.mem_cons, List.not_mem_nil, or_false, not_or] at hi
      rw [K1.x]; simp [Function.update_of_ne, hi]
  clear K1
  refine Ex.append (a := [.ofX gp3 1, ld gp3 (pt gp3 8)] ++ montgomery1 g gt2 gt1 gt8 gt4 gt3 gp2 gp3 gp1 gt5 gt6 gt7 gt9 gt10 false)
    (mulRound_ex g (k := 1) (by decide) (by decide) x1 hX p1 (by omega) (by rw [m1]; exact hP) y1 hY (by omega)) ?_
  rintro t2 ⟨⟨b1, b2⟩, K2, m2⟩
  have x2 := (K2.r gp2 (by decide)).trans x1
  have p2 := (K2.r gp1 (by decide)).trans p1
  have y2 := (congrFun K2.x 1).trans y1
  have z2 := (congrFun K2.x 0).trans z1
  rw [m1] at m2 b1 b2
  rw [a1, a2] at b1 b2
  have Q2 : KeepX (gp1 :: mulRegs) [0, 1] s t2 := Q1.trans ((K2.mono (by decide)).toX _)
  clear Q1 K2 a1 a2 m1 x1 p1 y1 z1
  refine Ex.append (a := [.ofX gp3 1, ld gp3 (pt gp3 16)] ++ montgomery1 g gt3 gt2 gt1 gt8 gt4 gp2 gp3 gp1 gt5 gt6 gt7 gt9 gt10 false)
    (mulRound_ex g (k := 2) (by decide) (by decide) x2 hX p2 (by omega) (by rw [m2]; exact hP) y2 hY (by omega)) ?_
  rintro t3 ⟨⟨a1, a2⟩, K1, m1⟩
  have x1 := (K1.r gp2 (by decide)).trans x2
  have p1 := (K1.r gp1 (by decide)).trans p2
  have y1 := (congrFun K1.x 1).trans y2
  have z1 := (congrFun K1.x 0).trans z2
  rw [m2] at m1 a1 a2
  rw [b1, b2] at a1 a2
  have Q1 : KeepX (gp1 :: mulRegs) [0, 1] s t3 := Q2.trans ((K1.mono (by decide)).toX _)
  clear Q2 K1 b1 b2 m2 x2 p2 y2 z2
  refine Ex.append (a := [.ofX gp3 1, ld gp3 (pt gp3 24)] ++ montgomery1 g gt4 gt3 gt2 gt1 gt8 gp2 gp3 gp1 gt5 gt6 gt7 gt9 gt10 false)
    (mulRound_ex g (k := 3) (by decide) (by decide) x1 hX p1 (by omega) (by rw [m1]; exact hP) y1 hY (by omega)) ?_
  rintro t4 ⟨⟨b1, b2⟩, K2, m2⟩
  have p2 := (K2.r gp1 (by decide)).trans p1
  have z2 := (congrFun K2.x 0).trans z1
  rw [m1] at m2 b1 b2
  rw [a1, a2] at b1 b2
  have Q2 : KeepX (gp1 :: mulRegs) [0, 1] s t4 := Q1.trans ((K2.mono (by decide)).toX _)
  clear Q1 K2 a1 a2 m1 x1 p1 y1 z1
  refine Ex.append (a := csubCode gt4 gt3 gt2 gt1 rdx gt7 gt6 gt5 (pt gp1)) (csub_ex1 (P := g.pT + 4) (by decide) (.pt p2 (by omega))) ?_
  rintro t5 ⟨c1, K3, m3⟩
  rw [m2] at m3 c1
  rw [b1, hP] at c1
  refine .cons (ofX_ok _ _ _) ?_
  have z3 : t5.x 0 = 8 * Z := (congrFun K3.x 0).trans z2
  refine (store_mr_ex (A := Z) (.pt (by simp [setR_r, z3]) (by omega))).mono ?_
  rintro u ⟨r1, r2, -, r3⟩
  refine ⟨?_, fun q hq => ?_, fun i hi => ?_⟩
  · rw [r3]
    simp only [setR_m, m3]
    congr 1
  · rw [r1, setR_r]
    by_cases h1 : q = gp1
    · subst h1; rw [Function.update_self, z3, hz]
    · rw [Function.update_of_ne h1, (K3.mono (M := mulRegs) (by decide)).r q hq, Q2.r q (by simp only [List.mem_cons, not_or] at hq ⊢; exact ⟨h1, hq⟩)]
  · rw [r2, setR_x, K3.x, Q2.x i hi]

/-- a row of `mul4x4` -/
theorem mulRow_ex (g : Cfg) {a3 a2 a1 a0 t9 u3 u2 u1 u0 u : Reg} {px py : Addr} {X Y : ℕ} {s : St}
    (hn : [a3, a2, a1, a0, t9, u3, u2, u1, u0, u, rax, rdx].Nodup) (hy : py.avoid [t9, u3, u2, u1, u0, u, rax, rdx])
    (hpx : Ptr s.r px X 1) (hpy : Ptr s.r py Y 4) :
    Ex ([ld t9 px] ++ (mul4x1 g py t9 u3 u2 u1 u0 u ++ (add_rr a3 a2 a1 a0 t9 u2 u1 u0 ++ [ori .adc rdx 0]))) s fun t =>
      (let m1 := Fp.mul4x1 (rd4 s.m Y) (s.m X)
       let s1 := add4 (R4 s.r a3 a2 a1 a0) m1.1 0
       R4 t.r a3 a2 a1 a0 = s1.1 ∧ t.r rdx = (m1.2 + s1.2) % B64) ∧
      Keep [a3, a2, a1, a0, t9, u3, u2, u1, u0, u, rax, rdx] s t ∧ t.m = s.m := by
  have hr : [rdx, rax, u, u0, u1, u2, u3, t9, a0, a1, a2, a3].Nodup := by simpa using List.nodup_reverse.mpr hn
  simp only [List.nodup_cons, List.mem_cons, List.not_mem_nil, or_false, not_or, List.nodup_nil, not_false_eq_true, and_true] at hn hr
  simp only [List.cons_append, List.nil_append]
  refine .cons (ld_ok hpx (by omega)) ?_
  refine Ex.append (mul4x1_ex g (Y := Y) (by simp [hn, hr]) hy (hpy.keep (L := [t9, u3, u2, u1, u0, u, rax, rdx]) hy (by keeps))) ?_
  rintro s1 ⟨h1, h2, K1, m1⟩
  have f0 := congrArg W4.w0 h1
  have f1 := congrArg W4.w1 h1
  have f2 := congrArg W4.w2 h1
  have f3 := congrArg W4.w3 h1
  have k0 := K1.r a0 (by simp [hn, hr])
  have k1 := K1.r a1 (by simp [hn, hr])
  have k2 := K1.r a2 (by simp [hn, hr])
  have k3 := K1.r a3 (by simp [hn, hr])
  simp only [R4, setR_r, setR_m, Function.update_self] at f0 f1 f2 f3 h2
  simp [setR_r, Function.update_of_ne, hn, hr] at k0 k1 k2 k3
  refine Ex.append (chain_rr_ex true (by simp [ChainOk, hn, hr]) s1) ?_
  rintro s2 ⟨h3, hc, K2, m2⟩
  have e1 : op4 true (R4 s1.r a3 a2 a1 a0) (R4 s1.r t9 u2 u1 u0) 0 =
      add4 (R4 s.r a3 a2 a1 a0) (Fp.mul4x1 (rd4 s.m Y) (s.m X)).1 0 := by
    simp only [op4, if_true, R4, k0, k1, k2, k3, f0, f1, f2, f3]
  rw [e1] at h3 hc
  have kd := (K2.r rdx (by simp [hn, hr])).trans h2
  refine .cons (ori_ok (alu_adc hc _ _)) (.nil ⟨⟨?_, ?_⟩, ⟨?_, ?_⟩, ?_⟩)
  · rw [← h3]
    simp [R4, setA_r, Function.update_of_ne, hn, hr]
  · simp [setA_r, kd, adc]
  · intro q hq
    have b1 := (K1.mono (M := [a3, a2, a1, a0, t9, u3, u2, u1, u0, u, rax, rdx]) (by simp)).r q hq
    have b2 := (K2.mono (M := [a3, a2, a1, a0, t9, u3, u2, u1, u0, u, rax, rdx]) (by simp)).r q hq
    simp only [List.mem_cons, List.not_mem_nil, or_false, not_or] at hq
    simp [setA_r, Function.update_of_ne, hq, b2]
    rw [b1]
    simp [setR_r, Function.update_of_ne, hq]
  · exact K2.x.trans K1.x
  · exact m2.trans m1

/-- a row and the store of its lowest word -/
theorem mulRowS_ex (g : Cfg) {a3 a2 a1 a0 t9 u3 u2 u1 u0 u : Reg} {pz px py : Addr} {Z X Y : ℕ} {s : St}
    (hn : [a3, a2, a1, a0, t9, u3, u2, u1, u0, u, rax, rdx].Nodup) (hy : py.avoid [t9, u3, u2, u1, u0, u, rax, rdx])
    (hz : pz.avoid [a3, a2, a1, a0, t9, u3, u2, u1, u0, u, rax, rdx])
    (hpz : Ptr s.r pz Z 1) (hpx : Ptr s.r px X 1) (hpy : Ptr s.r py Y 4) :
    Ex ([ld t9 px] ++ (mul4x1 g py t9 u3 u2 u1 u0 u ++ (add_rr a3 a2 a1 a0 t9 u2 u1 u0 ++ [ori .adc rdx 0, mv u3 rdx, .st pz a0]))) s fun t =>
      (let m1 := Fp.mul4x1 (rd4 s.m Y) (s.m X)
       let s1 := add4 (R4 s.r a3 a2 a1 a0) m1.1 0
       R4 t.r u3 a3 a2 a1 = ⟨s1.1.w1, s1.1.w2, s1.1.w3, (m1.2 + s1.2) % B64⟩ ∧ t.m = Function.update s.m Z s1.1.w0) ∧
      Keep [a3, a2, a1, a0, t9, u3, u2, u1, u0, u, rax, rdx] s t := by
  have e : [ld t9 px] ++ (mul4x1 g py t9 u3 u2 u1 u0 u ++ (add_rr a3 a2 a1 a0 t9 u2 u1 u0 ++ [ori .adc rdx 0, mv u3 rdx, .st pz a0])) =
      ([ld t9 px] ++ (mul4x1 g py t9 u3 u2 u1 u0 u ++ (add_rr a3 a2 a1 a0 t9 u2 u1 u0 ++ [ori .adc rdx 0]))) ++ [mv u3 rdx, .st pz a0] := by
    simp only [List.append_assoc, List.cons_append, List.nil_append]
  rw [e]
  refine Ex.append (mulRow_ex g hn hy hpx hpy) ?_
  rintro s1 ⟨⟨h1, h2⟩, K, m1⟩
  have hr : [rdx, rax, u, u0, u1, u2, u3, t9, a0, a1, a2, a3].Nodup := by simpa using List.nodup_reverse.mpr hn
  simp only [List.nodup_cons, List.mem_cons, List.not_mem_nil, or_false, not_or, List.nodup_nil, not_false_eq_true, and_true] at hn hr
  refine .cons (mv_ok _ _ _) (.cons (st_ok (hpz.keep hz (keep_set K.r (by simp))) (by omega)) (.nil ⟨⟨?_, ?_⟩, ⟨keep_set K.r (by simp), K.x⟩⟩))
  · have b1 := congrArg W4.w1 h1
    have b2 := congrArg W4.w2 h1
    have b3 := congrArg W4.w3 h1
    simp only [R4] at b1 b2 b3
    simp [setR_r, R4, hn, hr, b1, b2, b3, h2]
  · have b0 := congrArg W4.w0 h1
    simp only [R4] at b0
    simp [setR_r, hn, hr, b0, m1, R4]

/-- the first row -/
theorem mulRow0_ex (g : Cfg) {t5 t4 t3 t2 t1 t0 : Reg} {pz px py : Addr} {Z X Y : ℕ} {s : St}
    (hn : [t5, t4, t3, t2, t1, t0, rax, rdx].Nodup) (hz : pz.avoid [t5, t4, t3, t2, t1, t0, rax, rdx])
    (hy : py.avoid [t5, t4, t3, t2, t1, t0, rax, rdx]) (hpz : Ptr s.r pz Z 1) (hpx : Ptr s.r px X 1) (hpy : Ptr s.r py Y 4)
    (hzy : Z < Y ∨ Y + 4 ≤ Z) :
    Ex (if g.useMulx then
      [ld rdx px, .mulx t0 rax (.m py), .st pz rax, .mulx t1 rax (.m (py.plus 8)), orr .add t0 rax,
       .mulx t2 rax (.m (py.plus 16)), orr .adc t1 rax, .mulx t3 rax (.m (py.plus 24)), orr .adc t2 rax, ori .adc t3 0]
     else
      [ld t5 px, ld rax py, .mul (.r t5), .st pz rax, mv t0 rdx, ld rax (py.plus 8), .mul (.r t5), mv t3 rax, mv t1 rdx,
       ld rax (py.plus 16), .mul (.r t5), mv t4 rax, mv t2 rdx, ld rax (py.plus 24), .mul (.r t5), orr .add t0 t3, mvi t3 0,
       orr .adc t1 t4, orr .adc t2 rax, orr .adc t3 rdx]) s fun t =>
      (let m0 := Fp.mul4x1 (rd4 s.m Y) (s.m X)
       R4 t.r t3 t2 t1 t0 = ⟨m0.1.w1, m0.1.w2, m0.1.w3, m0.2⟩ ∧ t.m = Function.update s.m Z m0.1.w0) ∧
      Keep [t5, t4, t3, t2, t1, t0, rax, rdx] s t := by
  have hr : [rdx, rax, t0, t1, t2, t3, t4, t5].Nodup := by simpa using List.nodup_reverse.mpr hn
  simp only [List.nodup_cons, List.mem_cons, List.not_mem_nil, or_false, not_or, List.nodup_nil, not_false_eq_true, and_true] at hn hr
  have h0 : ∀ r', (∀ q, q ∉ [t5, t4, t3, t2, t1, t0, rax, rdx] → r' q = s.r q) → Ptr r' py Y 4 := fun r' h => hpy.keep hy h
  have h1 : ∀ r', (∀ q, q ∉ [t5, t4, t3, t2, t1, t0, rax, rdx] → r' q = s.r q) → Ptr r' (py.plus 8) (Y + 1) 3 :=
    fun r' h => (hpy.plus 1 (by omega)).keep (hy.plus _) h
  have h2 : ∀ r', (∀ q, q ∉ [t5, t4, t3, t2, t1, t0, rax, rdx] → r' q = s.r q) → Ptr r' (py.plus 16) (Y + 2) 2 :=
    fun r' h => (hpy.plus 2 (by omega)).keep (hy.plus _) h
  have h3 : ∀ r', (∀ q, q ∉ [t5, t4, t3, t2, t1, t0, rax, rdx] → r' q = s.r q) → Ptr r' (py.plus 24) (Y + 3) 1 :=
    fun r' h => (hpy.plus 3 (by omega)).keep (hy.plus _) h
  have z0 : ∀ r', (∀ q, q ∉ [t5, t4, t3, t2, t1, t0, rax, rdx] → r' q = s.r q) → Ptr r' pz Z 1 := fun r' h => hpz.keep hz h
  have n1 : Y + 1 ≠ Z := by omega
  have n2 : Y + 2 ≠ Z := by omega
  have n3 : Y + 3 ≠ Z := by omega
  split
  · refine .cons (ld_ok hpx (by omega)) (.cons (mulx_ok (src_m (h0 _ (by keeps)) (by omega))) (.cons (st_ok (z0 _ (by keeps)) (by omega))
      (.cons (mulx_ok (src_m (h1 _ (by keeps)) (by omega))) (.cons (orr_ok (alu_add _ _ _)) (.cons (mulx_ok (src_m (h2 _ (by keeps)) (by omega)))
      (.cons (orr_ok (alu_adc (by rfl) _ _)) (.cons (mulx_ok (src_m (h3 _ (by keeps)) (by omega))) (.cons (orr_ok (alu_adc (by rfl) _ _))
      (.cons (ori_ok (alu_adc (by rfl) _ _)) (.nil ?_))))))))))
    refine ⟨⟨?_, ?_⟩, ⟨by keeps, rfl⟩⟩ <;>
    simp [R4, rd4, Fp.mul4x1, setA_r, setR_r, Function.update_of_ne, hn, hr, adc, n1, n2, n3]
  · refine .cons (ld_ok hpx (by omega)) (.cons (ld_ok (h0 _ (by keeps)) (by omega)) (.cons (mul_ok (src_r _ _)) (.cons (st_ok (z0 _ (by keeps)) (by omega))
      (.cons (mv_ok _ _ _) (.cons (ld_ok (h1 _ (by keeps)) (by omega)) (.cons (mul_ok (src_r _ _)) (.cons (mv_ok _ _ _) (.cons (mv_ok _ _ _)
      (.cons (ld_ok (h2 _ (by keeps)) (by omega)) (.cons (mul_ok (src_r _ _)) (.cons (mv_ok _ _ _) (.cons (mv_ok _ _ _)
      (.cons (ld_ok (h3 _ (by keeps)) (by omega)) (.cons (mul_ok (src_r _ _)) ?_))))))))))))))
    refine .cons (orr_ok (alu_add _ _ _)) (.cons (mvi_ok _ _ _) (.cons (orr_ok (alu_adc (by rfl) _ _)) (.cons (orr_ok (alu_adc (by rfl) _ _))
      (.cons (orr_ok (alu_adc (by rfl) _ _)) (.nil ?_)))))
    refine ⟨⟨?_, ?_⟩, ⟨by keeps, rfl⟩⟩ <;>
    simp [R4, rd4, Fp.mul4x1, setA_r, setR_r, Function.update_of_ne, hn, hr, adc, n1, n2, n3, Nat.mul_comm (s.m X)]

theorem wr4_of (m : ℕ → ℕ) (A : ℕ) (w : W4) {i : ℕ} (h : i < A ∨ A + 4 ≤ i) : wr4 m A w i = m i := by
  unfold wr4
  rw [Function.update_of_ne (by omega), Function.update_of_ne (by omega), Function.update_of_ne (by omega), Function.update_of_ne (by omega)]

theorem rd4_congr {m m' : ℕ → ℕ} {A : ℕ} (h : ∀ i, A ≤ i → i < A + 4 → m' i = m i) : rd4 m' A = rd4 m A := by
  unfold rd4
  rw [h A (by omega) (by omega), h (A + 1) (by omega) (by omega), h (A + 2) (by omega) (by omega), h (A + 3) (by omega) (by omega)]

theorem mul4x4_ex (g : Cfg) {t9 t8 t7 t6 t5 t4 t3 t2 t1 t0 : Reg} {pz px py : Addr} {Z X Y : ℕ} {s : St}
    (hn : [t9, t8, t7, t6, t5, t4, t3, t2, t1, t0, rax, rdx].Nodup)
    (hz : pz.avoid [t9, t8, t7, t6, t5, t4, t3, t2, t1, t0, rax, rdx]) (hx : px.avoid [t9, t8, t7, t6, t5, t4, t3, t2, t1, t0, rax, rdx])
    (hy : py.avoid [t9, t8, t7, t6, t5, t4, t3, t2, t1, t0, rax, rdx])
    (hpz : Ptr s.r pz Z 8) (hpx : Ptr s.r px X 4) (hpy : Ptr s.r py Y 4)
    (hzx : Z + 8 ≤ X ∨ X + 4 ≤ Z) (hzy : Z + 8 ≤ Y ∨ Y + 4 ≤ Z) :
    Ex (mul4x4 g pz px py t9 t8 t7 t6 t5 t4 t3 t2 t1 t0) s fun t =>
      t.m = wr8 s.m Z (Fp.mul4x4 (rd4 s.m X) (rd4 s.m Y)) ∧ Keep [t9, t8, t7, t6, t5, t4, t3, t2, t1, t0, rax, rdx] s t := by
  have hr : [rdx, rax, t0, t1, t2, t3, t4, t5, t6, t7, t8, t9].Nodup := by simpa using List.nodup_reverse.mpr hn
  simp only [List.nodup_cons, List.mem_cons, List.not_mem_nil, or_false, not_or, List.nodup_nil, not_false_eq_true, and_true] at hn hr
  have hc : mul4x4 g pz px py t9 t8 t7 t6 t5 t4 t3 t2 t1 t0 = (if g.useMulx then
      [ld rdx px, .mulx t0 rax (.m py), .st pz rax, .mulx t1 rax (.m (py.plus 8)), orr .add t0 rax,
       .mulx t2 rax (.m (py.plus 16)), orr .adc t1 rax, .mulx t3 rax (.m (py.plus 24)), orr .adc t2 rax, ori .adc t3 0]
     else
      [ld t5 px, ld rax py, .mul (.r t5), .st pz rax, mv t0 rdx, ld rax (py.plus 8), .mul (.r t5), mv t3 rax, mv t1 rdx,
       ld rax (py.plus 16), .mul (.r t5), mv t4 rax, mv t2 rdx, ld rax (py.plus 24), .mul (.r t5), orr .add t0 t3, mvi t3 0,
       orr .adc t1 t4, orr .adc t2 rax, orr .adc t3 rdx]) ++
     (([ld t9 (px.plus 8)] ++ (mul4x1 g py t9 t8 t7 t6 t5 t4 ++ (add_rr t3 t2 t1 t0 t9 t7 t6 t5 ++ [ori .adc rdx 0, mv t8 rdx, .st (pz.plus 8) t0]))) ++
     (([ld t9 (px.plus 16)] ++ (mul4x1 g py t9 t7 t6 t5 t4 t0 ++ (add_rr t8 t3 t2 t1 t9 t6 t5 t4 ++ [ori .adc rdx 0, mv t7 rdx, .st (pz.plus 16) t1]))) ++
     (([ld t9 (px.plus 24)] ++ (mul4x1 g py t9 t6 t5 t4 t1 t0 ++ (add_rr t7 t8 t3 t2 t9 t5 t4 t1 ++ [ori .adc rdx 0]))) ++
     (store_mr (pz.plus 24) t7 t8 t3 t2 ++ [.st (pz.plus 56) rdx])))) := by
    unfold mul4x4
    simp only [List.append_assoc, List.cons_append, List.nil_append]
  rw [hc]
  have pz' : ∀ (k : ℕ) (r' : Reg → ℕ), k < 8 → (∀ q, q ∉ [t9, t8, t7, t6, t5, t4, t3, t2, t1, t0, rax, rdx] → r' q = s.r q) →
      Ptr r' (pz.plus (8 * k)) (Z + k) (8 - k) := fun k r' hk h => (hpz.plus k (by omega)).keep (hz.plus _) h
  have px' : ∀ (k : ℕ) (r' : Reg → ℕ), k < 4 → (∀ q, q ∉ [t9, t8, t7, t6, t5, t4, t3, t2, t1, t0, rax, rdx] → r' q = s.r q) →
      Ptr r' (px.plus (8 * k)) (X + k) 1 := fun k r' hk h => ⟨((hpx.plus k (by omega)).keep (hx.plus _) h).eq, by have := hpx.le; omega⟩
  have py' : ∀ (r' : Reg → ℕ), (∀ q, q ∉ [t9, t8, t7, t6, t5, t4, t3, t2, t1, t0, rax, rdx] → r' q = s.r q) →
      Ptr r' py Y 4 := fun r' h => hpy.keep hy h
  refine Ex.append (mulRow0_ex g (Z := Z) (X := X) (Y := Y) (by simp [hn, hr]) (hz.mono (by simp)) (hy.mono (by simp))
    ⟨hpz.eq, by have := hpz.le; omega⟩ ⟨hpx.eq, by have := hpx.le; omega⟩ hpy (by omega)) ?_
  rintro s0 ⟨⟨a0, m0⟩, K0⟩
  have K0 := K0.mono (M := [t9, t8, t7, t6, t5, t4, t3, t2, t1, t0, rax, rdx]) (by simp)
  have y0 : rd4 s0.m Y = rd4 s.m Y := rd4_congr fun i h1 h2 => by rw [m0, Function.update_of_ne (by omega)]
  have x0 : s0.m (X + 1) = s.m (X + 1) := by rw [m0, Function.update_of_ne (by omega)]
  refine Ex.append (mulRowS_ex g (X := X + 1) (Y := Y) (Z := Z + 1) (by simp [hn, hr]) (hy.mono (by simp)) (hz.mono (by simp))
    ⟨(pz' 1 _ (by omega) K0.r).eq, by have := hpz.le; omega⟩ (px' 1 _ (by omega) K0.r) (py' _ K0.r)) ?_
  rintro s1 ⟨⟨a1, m1⟩, K1⟩
  have K1 := K0.trans (K1.mono (M := [t9, t8, t7, t6, t5, t4, t3, t2, t1, t0, rax, rdx]) (by simp))
  rw [y0, x0, a0] at a1 m1
  have y1 : rd4 s1.m Y = rd4 s.m Y := (rd4_congr fun i h1 h2 => by rw [m1, Function.update_of_ne (by omega)]).trans y0
  have x1 : s1.m (X + 2) = s.m (X + 2) := by rw [m1, m0, Function.update_of_ne (by omega), Function.update_of_ne (by omega)]
  refine Ex.append (mulRowS_ex g (X := X + 2) (Y := Y) (Z := Z + 2) (by simp [hn, hr]) (hy.mono (by simp)) (hz.mono (by simp))
    ⟨(pz' 2 _ (by omega) K1.r).eq, by have := hpz.le; omega⟩ (px' 2 _ (by omega) K1.r) (py' _ K1.r)) ?_
  rintro s2 ⟨⟨a2, m2⟩, K2⟩
  have K2 := K1.trans (K2.mono (M := [t9, t8, t7, t6, t5, t4, t3, t2, t1, t0, rax, rdx]) (by simp))
  rw [y1, x1, a1] at a2 m2
  have y2 : rd4 s2.m Y = rd4 s.m Y := (rd4_congr fun i h1 h2 => by rw [m2, Function.update_of_ne (by omega)]).trans y1
  have x2 : s2.m (X + 3) = s.m (X + 3) := by
    rw [m2, m1, m0, Function.update_of_ne (by omega), Function.update_of_ne (by omega), Function.update_of_ne (by omega)]
  refine Ex.append (mulRow_ex g (X := X + 3) (Y := Y) (by simp [hn, hr]) (hy.mono (by simp)) (px' 3 _ (by omega) K2.r) (py' _ K2.r)) ?_
  rintro s3 ⟨⟨a3, d3⟩, K3, m3⟩
  have K3 := K2.trans (K3.mono (M := [t9, t8, t7, t6, t5, t4, t3, t2, t1, t0, rax, rdx]) (by simp))
  rw [y2, x2, a2] at a3 d3
  refine Ex.append (store_mr_ex (A := Z + 3) ⟨(pz' 3 _ (by omega) K3.r).eq, by have := hpz.le; omega⟩) ?_
  rintro s4 ⟨r4, x4, -, m4⟩
  refine .cons (st_ok (A := Z + 7) (n := 1) ⟨?_, ?_⟩ (by omega)) (.nil ⟨?_, ?_⟩)
  · rw [r4]; exact (pz' 7 _ (by omega) K3.r).eq
  · have := hpz.le; omega
  · dsimp only
    rw [m4, r4, m3, m2, m1, m0, a3, d3]
    rfl
  · exact ⟨fun q hq => by rw [r4]; exact K3.r q hq, x4.trans K3.x⟩

end Jit
end Verif
