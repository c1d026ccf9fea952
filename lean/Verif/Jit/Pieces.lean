import Verif.Jit.Field

/-! Further blocks of the code generator: the lazily reduced sums of the compressed squaring, and the pieces of the Fp2
multiplications and squarings. -/

namespace Verif
namespace Jit

open Fp Reg

set_option linter.unusedSimpArgs false

theorem add4_lt (x y : W4) (c : ℕ) : (add4 x y c).1.w3 < B64 := by
  unfold add4 adc; dsimp only; omega

theorem in_Fp_2z_add_3x_ex (g : Cfg) {mz mx : Addr} {Z X : ℕ} {s : St}
    (hz : mz.avoid [gt4, gt3, gt2, gt1, gp3, gt5, gt6, gt7, rax, rdx]) (hx : mx.avoid [gt4, gt3, gt2, gt1, gp3, gt5, gt6, gt7, rax, rdx])
    (hpz : Ptr s.r mz Z 4) (hpx : Ptr s.r mx X 4) (hb : 8 * (g.pT + 32) ≤ B64) (hP : ∀ i, i < 8 → rd4 s.m (g.pT + 4 * i) = pTbl i) :
    Ex (in_Fp_2z_add_3x g mz mx) s fun t => t.m = wr4 s.m Z (w2zAdd3x (rd4 s.m Z) (rd4 s.m X)) ∧
      Keep [gt4, gt3, gt2, gt1, gp3, gt5, gt6, gt7, rax, rdx] s t := by
  unfold in_Fp_2z_add_3x
  simp only [List.append_assoc]
  refine Ex.append (load_op_rm_ex g true false (by decide) (hz.mono (by decide)) (hx.mono (by decide)) hpz hpx (.no _)) ?_
  rintro t1 ⟨h1, -, K1, m1⟩
  refine Ex.append (chain_rr_ex true (by decide) t1) ?_
  rintro t2 ⟨h2, -, K2, m2⟩
  have K2 := K1.trans K2
  refine Ex.append (chain_rm_ex true false (A := X) (c := 0) (by decide) (hx.mono (by decide)) (hpx.keep (hx.mono (by decide)) K2.r) (.no _)) ?_
  rintro t3 ⟨h3, -, K3, m3⟩
  have K3 := K2.trans K3
  have m3 := m3.trans (m2.trans m1)
  refine Ex.append (fast_modp_ex g (by decide) ?_ hb (by rw [m3]; exact hP)) ?_
  · exact (congrArg (fun w : W4 => w.w3 < B64) h3).mpr (add4_lt _ _ _)
  rintro t4 ⟨h4, K4, m4⟩
  have K := (K3.mono (M := [gt4, gt3, gt2, gt1, gp3, gt5, gt6, gt7, rax, rdx]) (by decide)).trans K4
  refine (store_mr_ex (hpz.keep hz K.r)).mono ?_
  rintro w ⟨r5, x5, -, m5⟩
  refine ⟨?_, ⟨fun q hq => by rw [r5]; exact K.r q hq, x5.trans K.x⟩⟩
  rw [m5, h4, m4, m3, h3, h2, h1, m2, m1]
  rfl

/-- one component of the update of g4: 2 (x + p - y) + x, then `fast_modp` -/
def wG4 (x y : W4) : W4 :=
  let t := (sub4 (add4 x (pTbl 1) 0).1 y 0).1
  let t := (add4 t t 0).1
  wFastModp (add4 t x 0).1

theorem in_g4_ex (g : Cfg) (i : ℕ) {Z X : ℕ} {s : St}
    (hpz : Ptr s.r (pt gt10 (64 + 32 * i)) Z 4) (hpx : Ptr s.r (pt rsp (32 * i)) X 4) (hb : 8 * (g.pT + 32) ≤ B64)
    (hP : ∀ i, i < 8 → rd4 s.m (g.pT + 4 * i) = pTbl i) :
    Ex (in_g4 g i) s fun t => t.m = wr4 s.m Z (wG4 (rd4 s.m X) (rd4 s.m Z)) ∧
      Keep [gt4, gt3, gt2, gt1, gp1, gp2, gp3, gt5, rax, rdx] s t := by
  have az : ∀ L : List Reg, gt10 ∉ L → (pt gt10 (64 + 32 * i)).avoid L := fun L h => ⟨h, by simp [pt]⟩
  have ax : ∀ L : List Reg, rsp ∉ L → (pt rsp (32 * i)).avoid L := fun L h => ⟨h, by simp [pt]⟩
  unfold in_g4
  simp only [List.append_assoc, List.cons_append, List.nil_append]
  refine .cons (mvi_ok _ _ _) ?_
  have hr : (setR s rax (pTblAt g 1 % B64)).r rax = 8 * (g.pT + 4) := by
    simp only [setR_r, Function.update_self]; exact hpt g 1 (by omega)
  refine Ex.append (load_op_rm_ex g true false (X := X) (Y := g.pT + 4) (by decide) (ax _ (by decide)) (by decide)
    (hpx.keep (L := [rax]) (ax _ (by decide)) (by keeps)) (.pt (by rw [hr, Nat.add_zero]) (by omega)) (.no _)) ?_
  rintro t1 ⟨h1, -, K1, m1⟩
  have L1 : Keep [rax, gt4, gt3, gt2, gt1] s t1 := ⟨fun q hq => by
    rw [(K1.mono (M := [rax, gt4, gt3, gt2, gt1]) (by decide)).r q hq]; revert q; keeps, K1.x⟩
  replace m1 : t1.m = s.m := m1
  simp only [setR_m, hP 1 (by omega), Nat.mul_one] at h1
  refine Ex.append (chain_rm_ex false false (A := Z) (c := 0) (by decide) (az _ (by decide)) (hpz.keep (az _ (by decide)) L1.r) (.no _)) ?_
  rintro t2 ⟨h2, -, K2, m2⟩
  have L2 := L1.trans (K2.mono (by decide))
  rw [m1] at m2 h2
  rw [h1] at h2
  refine Ex.append (chain_rr_ex true (by decide) t2) ?_
  rintro t3 ⟨h3, -, K3, m3⟩
  have L3 := L2.trans (K3.mono (by decide))
  rw [m2] at m3
  rw [h2] at h3
  refine Ex.append (chain_rm_ex true false (A := X) (c := 0) (by decide) (ax _ (by decide)) (hpx.keep (ax _ (by decide)) L3.r) (.no _)) ?_
  rintro t4 ⟨h4, -, K4, m4⟩
  have L4 := L3.trans (K4.mono (by decide))
  rw [m3] at m4 h4
  rw [h3] at h4
  refine Ex.append (fast_modp_ex g (by decide) ?_ hb (by rw [m4]; exact hP)) ?_
  · exact (congrArg (fun w : W4 => w.w3 < B64) h4).mpr (add4_lt _ _ _)
  rintro t5 ⟨h5, K5, m5⟩
  rw [h4] at h5
  rw [m4] at m5
  have K := (L4.mono (M := [gt4, gt3, gt2, gt1, gp1, gp2, gp3, gt5, rax, rdx]) (by decide)).trans (K5.mono (by decide))
  refine (store_mr_ex (hpz.keep (az _ (by decide)) K.r)).mono ?_
  rintro w ⟨r6, x6, -, m6⟩
  refine ⟨?_, ⟨fun q hq => by rw [r6]; exact K.r q hq, x6.trans K.x⟩⟩
  rw [m6, h5, m5]
  rfl

theorem in_FpDbl_subOpt1_ex (g : Cfg) {mz mx my : Addr} {Z X Y : ℕ} {s : St}
    (hz : mz.avoid (rax :: addRegs)) (hx : mx.avoid (rax :: addRegs)) (hy : my.avoid (rax :: addRegs))
    (hpz : Ptr s.r mz Z 8) (hpx : Ptr s.r mx X 8) (hpy : Ptr s.r my Y 8) (hzy : Seq Z Y 8)
    (hNb : 8 * (g.nT + 24) ≤ B64) (hN : rd8 s.m (g.nT + 16) = pNTbl 2) :
    Ex (in_FpDbl_subOpt1 g mz mx my) s fun t => t.m = wr8 s.m Z (dSubOpt1 (rd8 s.m X) (rd8 s.m Y)) ∧ Keep (rax :: addRegs) s t := by
  unfold in_FpDbl_subOpt1
  simp only [List.append_assoc, List.cons_append, List.nil_append]
  refine .cons (mvi_ok _ _ _) ?_
  have k0 : ∀ {a : Addr} {A n : ℕ}, Ptr s.r a A n → a.avoid (rax :: addRegs) → Ptr (setR s rax (8 * (g.nT + 16) % B64)).r a A n :=
    fun h h' => h.keep h' (by keeps)
  have le4 : ∀ {r : Reg → ℕ} {a : Addr} {A : ℕ}, Ptr r a A 8 → Ptr r a A 4 := fun h => ⟨h.eq, by have := h.le; omega⟩
  refine Ex.append (load_rm_ex (by decide) (hx.mono (by decide)) (le4 (k0 hpx hx))) ?_
  rintro t1 ⟨h1, K1, m1, -⟩
  replace m1 : t1.m = s.m := m1
  have hr1 : t1.r rax = 8 * (g.nT + 16) := by
    rw [K1.r rax (by decide)]; simp only [setR_r, Function.update_self]; omega
  have L1 : Keep (rax :: addRegs) s t1 := ⟨fun q hq => by
    rw [(K1.mono (M := rax :: addRegs) (by decide)).r q hq]; revert q; keeps, K1.x⟩
  have n3 : s.m (g.nT + 16 + 3) = (pNTbl 2).lo.w3 := congrArg (fun w : W8 => w.lo.w3) hN
  have n4 : rd4 s.m (g.nT + 20) = (pNTbl 2).hi := congrArg W8.hi hN
  refine .cons (orm_ok (A := g.nT + 19) (n := 1) (.pt (by rw [hr1]; omega) (by omega)) (by omega) (alu_add _ _ _)) ?_
  have L2 : Keep (rax :: addRegs) s (setA t1 gt4 (adc (t1.r gt4) (t1.m (g.nT + 19)) 0)) := ⟨keep_set L1.r (by decide), L1.x⟩
  refine Ex.append (load_op_rm_ex g true true (X := X + 4) (Y := g.nT + 20) (by decide) ((hx.plus _).mono (by decide)) (by decide)
    ((hpx.keep hx L2.r).plus 4 (by omega)) (.pt (by simp [setA_r, hr1]; omega) (by omega)) (.yes rfl)) ?_
  rintro t2 ⟨h2, -, K2, m2⟩
  replace m2 : t2.m = s.m := Eq.trans m2 m1
  simp only [setA_m, m1] at h2
  have f0 := congrArg W4.w0 h1
  have f1 := congrArg W4.w1 h1
  have f2 := congrArg W4.w2 h1
  have f3 := congrArg W4.w3 h1
  simp only [R4, rd4, setR_m] at f0 f1 f2 f3
  rw [f3, n3, n4] at h2
  have hl : R4 t2.r gt4 gt3 gt2 gt1 = ⟨s.m X, s.m (X + 1), s.m (X + 2), (adc (s.m (X + 3)) (pNTbl 2).lo.w3 0).1⟩ := by
    unfold R4
    rw [K2.r gt1 (by decide), K2.r gt2 (by decide), K2.r gt3 (by decide), K2.r gt4 (by decide)]
    simp [setA_r, f0, f1, f2, f3, m1]
    rw [n3]
  have L3 := L2.trans (K2.mono (M := rax :: addRegs) (by decide))
  refine Ex.append (chain_rm_ex false false (A := Y) (c := 0) (by decide) (hy.mono (by decide)) (le4 (hpy.keep hy L3.r)) (.no _)) ?_
  rintro t3 ⟨h3, hc3, K3, m3⟩
  rw [m2] at m3 h3 hc3
  rw [hl] at h3 hc3
  have L4 := L3.trans (K3.mono (M := rax :: addRegs) (by decide))
  refine Ex.append (store_mr_ex (le4 (hpz.keep hz L4.r))) ?_
  rintro t4 ⟨r4, x4, c4, m4⟩
  rw [m3, h3] at m4
  have L5 : Keep (rax :: addRegs) s t4 := ⟨fun q hq => by rw [r4]; exact L4.r q hq, x4.trans L4.x⟩
  refine Ex.append (chain_rm_ex false true (A := Y + 4) (by decide) ((hy.plus _).mono (by decide)) ((hpy.keep hy L5.r).plus 4 (by omega)) (.yes (c4.trans hc3))) ?_
  rintro t5 ⟨h5, -, K5, m5⟩
  have L6 := L5.trans (K5.mono (M := rax :: addRegs) (by decide))
  refine Ex.mono (store_mr_ex ((hpz.keep hz L6.r).plus 4 (by omega))) ?_
  rintro t6 ⟨r6, x6, -, m6⟩
  refine ⟨?_, ⟨fun q hq => by rw [r6]; exact L6.r q hq, x6.trans L6.x⟩⟩
  have hh : R4 t4.r rdx gt7 gt6 gt5 = R4 t2.r rdx gt7 gt6 gt5 := by
    unfold R4
    rw [r4, K3.r gt5 (by decide), K3.r gt6 (by decide), K3.r gt7 (by decide), K3.r rdx (by decide)]
  rw [m6, h5, m5, hh, h2, m4, rd4_wr4_of (by unfold Seq at *; omega)]
  rfl

theorem sub_Fp2Dbl_subNC_ex (g : Cfg) {pz px : Addr} {Z X : ℕ} {t3 t2 t1 t0 : Reg} {s : St} (hn : [t3, t2, t1, t0].Nodup)
    (hz : pz.avoid [t3, t2, t1, t0]) (hx : px.avoid [t3, t2, t1, t0]) (hpz : Ptr s.r pz Z 8) (hpx : Ptr s.r px X 8) (hzx : Seq Z X 8) :
    Ex (sub_Fp2Dbl_subNC g pz px t3 t2 t1 t0) s fun t => t.m = wr8 s.m Z (dSubNC (rd8 s.m Z) (rd8 s.m X)) ∧ Keep [t3, t2, t1, t0] s t := by
  unfold sub_Fp2Dbl_subNC
  simp only [List.append_assoc]
  have le4 : ∀ {r : Reg → ℕ} {a : Addr} {A : ℕ}, Ptr r a A 8 → Ptr r a A 4 := fun h => ⟨h.eq, by have := h.le; omega⟩
  refine Ex.append (load_op_rm_ex g false false hn (hz.mono (by simp)) hx (le4 hpz) (le4 hpx) (.no _)) ?_
  rintro s1 ⟨h1, c1, K1, m1⟩
  refine Ex.append (store_mr_ex (le4 (hpz.keep hz K1.r))) ?_
  rintro s2 ⟨r2, x2, c2, m2⟩
  rw [h1, m1] at m2
  have K2 : Keep [t3, t2, t1, t0] s s2 := ⟨fun q hq => by rw [r2]; exact K1.r q hq, x2.trans K1.x⟩
  refine Ex.append (load_op_rm_ex g false true hn ((hz.plus _).mono (by simp)) (hx.plus _) ((hpz.keep hz K2.r).plus 4 (by omega))
    ((hpx.keep hx K2.r).plus 4 (by omega)) (.yes (c2.trans c1))) ?_
  rintro s3 ⟨h3, -, K3, m3⟩
  have K3 := K2.trans K3
  refine Ex.mono (store_mr_ex ((hpz.keep hz K3.r).plus 4 (by omega))) ?_
  rintro s4 ⟨r4, x4, -, m4⟩
  refine ⟨?_, ⟨fun q hq => by rw [r4]; exact K3.r q hq, x4.trans K3.x⟩⟩
  rw [m4, h3, m3, m2, rd4_wr4_of (by omega), rd4_wr4_of (by unfold Seq at *; omega)]
  rfl

section
variable {t3 t2 t1 t0 : Reg}

/-- `load_rm; add_rr; store_mr`: twice a number, without carry -/
theorem dblNC1_ex {mz mx : Addr} {Z X : ℕ} {s : St} (hn : [t3, t2, t1, t0].Nodup) (hz : mz.avoid [t3, t2, t1, t0]) (hx : mx.avoid [t3, t2, t1, t0])
    (hpz : Ptr s.r mz Z 4) (hpx : Ptr s.r mx X 4) :
    Ex (load_rm t3 t2 t1 t0 mx ++ (add_rr t3 t2 t1 t0 t3 t2 t1 t0 ++ store_mr mz t3 t2 t1 t0)) s fun t =>
      t.m = wr4 s.m Z (wAddNC (rd4 s.m X) (rd4 s.m X)) ∧ Keep [t3, t2, t1, t0] s t := by
  have hr : [t0, t1, t2, t3].Nodup := by simpa using List.nodup_reverse.mpr hn
  refine Ex.append (load_rm_ex hn (hx.mono (by simp)) hpx) ?_
  rintro s1 ⟨h1, K1, m1, -⟩
  refine Ex.append (chain_rr_ex true ?_ s1) ?_
  · unfold ChainOk; simp at hn hr ⊢; simp [hn, hr]
  rintro s2 ⟨h2, -, K2, m2⟩
  have K := K1.trans K2
  refine (store_mr_ex (hpz.keep hz K.r)).mono ?_
  rintro s3 ⟨r3, x3, -, m3⟩
  refine ⟨?_, ⟨fun q hq => by rw [r3]; exact K.r q hq, x3.trans K.x⟩⟩
  rw [m3, h2, h1, m2, m1]
  rfl

/-- `load_add_rm x p; sub_rm y; store_mr`: x + p - y without carries -/
theorem addp_sub_ex (g : Cfg) {mz mx my : Addr} {Z X Y : ℕ} {s : St} (hn : [t3, t2, t1, t0].Nodup) (hra : rax ∉ [t3, t2, t1, t0])
    (hz : mz.avoid [t3, t2, t1, t0]) (hx : mx.avoid [t3, t2, t1, t0]) (hy : my.avoid [t3, t2, t1, t0])
    (hpz : Ptr s.r mz Z 4) (hpx : Ptr s.r mx X 4) (hpy : Ptr s.r my Y 4) (hr : s.r rax = 8 * (g.pT + 4)) (hb : 8 * (g.pT + 8) ≤ B64)
    (hP : rd4 s.m (g.pT + 4) = pTbl 1) :
    Ex (load_add_rm g t3 t2 t1 t0 mx (pt rax) false ++ (sub_rm t3 t2 t1 t0 my ++ store_mr mz t3 t2 t1 t0)) s fun t =>
      t.m = wr4 s.m Z (wSubNC (wAddNC (rd4 s.m X) (pTbl 1)) (rd4 s.m Y)) ∧ Keep [t3, t2, t1, t0] s t := by
  refine Ex.append (load_op_rm_ex g true false (X := X) (Y := g.pT + 4) hn (hx.mono (by simp)) ⟨hra, by simp [pt]⟩ hpx
    (.pt (by rw [hr, Nat.add_zero]) (by omega)) (.no _)) ?_
  rintro s1 ⟨h1, -, K1, m1⟩
  rw [hP] at h1
  refine Ex.append (chain_rm_ex false false (A := Y) (c := 0) hn (hy.mono (by simp)) (hpy.keep hy K1.r) (.no _)) ?_
  rintro s2 ⟨h2, -, K2, m2⟩
  have K := K1.trans K2
  refine (store_mr_ex (hpz.keep hz K.r)).mono ?_
  rintro s3 ⟨r3, x3, -, m3⟩
  refine ⟨?_, ⟨fun q hq => by rw [r3]; exact K.r q hq, x3.trans K.x⟩⟩
  rw [m3, h2, h1, m2, m1]
  rfl
end

/-- the middle of `sub_Fp2Dbl_mulOpt`: z.b -= z.a, z.b -= d0 -/
def mulOptMid (g : Cfg) : List Op :=
  load_sub_rm g gt3 gt2 gt1 gt10 (pt gp1 64) (pt gp1) false ++ (load_sub_rm g gt7 gt6 gt5 gt4 (pt gp1 96) (pt gp1 32) true ++
    (sub_rm gt3 gt2 gt1 gt10 (pt rsp 64) ++ (sbb_rm gt7 gt6 gt5 gt4 (pt rsp 96) ++
    (store_mr (pt gp1 64) gt3 gt2 gt1 gt10 ++ store_mr (pt gp1 96) gt7 gt6 gt5 gt4))))

theorem mulOptMid_ex (g : Cfg) {Z D : ℕ} {s : St} (hz : s.r gp1 = 8 * Z) (hd : s.r rsp + 64 = 8 * D) (hZ : 8 * (Z + 16) ≤ B64) (hD : 8 * (D + 8) ≤ B64) :
    Ex (mulOptMid g) s fun t => t.m = wr8 s.m (Z + 8) (dSubNC (dSubNC (rd8 s.m (Z + 8)) (rd8 s.m Z)) (rd8 s.m D)) ∧
      Keep [gt3, gt2, gt1, gt10, gt7, gt6, gt5, gt4] s t := by
  have pz : ∀ {s' : St} (k : ℕ), Keep [gt3, gt2, gt1, gt10, gt7, gt6, gt5, gt4] s s' → k ≤ 12 → Ptr s'.r (pt gp1 (8 * k)) (Z + k) 4 :=
    fun k K hk => .pt (by rw [K.r gp1 (by decide), hz]; omega) (by omega)
  have pd : ∀ {s' : St} (k : ℕ), Keep [gt3, gt2, gt1, gt10, gt7, gt6, gt5, gt4] s s' → k ≤ 4 → Ptr s'.r (pt rsp (64 + 8 * k)) (D + k) 4 :=
    fun k K hk => .pt (by rw [K.r rsp (by decide)]; omega) (by omega)
  unfold mulOptMid
  refine Ex.append (load_op_rm_ex g false false (X := Z + 8) (Y := Z) (by decide) (by decide) (by decide) (pz 8 (.refl _ _) (by omega))
    (pz 0 (.refl _ _) (by omega)) (.no _)) ?_
  rintro s1 ⟨h1, c1, K1, m1⟩
  have L1 := K1.mono (M := [gt3, gt2, gt1, gt10, gt7, gt6, gt5, gt4]) (by decide)
  refine Ex.append (load_op_rm_ex g false true (X := Z + 12) (Y := Z + 4) (by decide) (by decide) (by decide) (pz 12 L1 (by omega))
    (pz 4 L1 (by omega)) (.yes c1)) ?_
  rintro s2 ⟨h2, c2, K2, m2⟩
  have L2 := L1.trans (K2.mono (by decide))
  have g1 : R4 s2.r gt3 gt2 gt1 gt10 = R4 s1.r gt3 gt2 gt1 gt10 := by
    unfold R4
    rw [K2.r gt3 (by decide), K2.r gt2 (by decide), K2.r gt1 (by decide), K2.r gt10 (by decide)]
  refine Ex.append (chain_rm_ex false false (A := D) (c := 0) (by decide) (by decide) (pd 0 L2 (by omega)) (.no _)) ?_
  rintro s3 ⟨h3, c3, K3, m3⟩
  have L3 := L2.trans (K3.mono (by decide))
  have g2 : R4 s3.r gt7 gt6 gt5 gt4 = R4 s2.r gt7 gt6 gt5 gt4 := by
    unfold R4
    rw [K3.r gt7 (by decide), K3.r gt6 (by decide), K3.r gt5 (by decide), K3.r gt4 (by decide)]
  refine Ex.append (chain_rm_ex false true (A := D + 4) (by decide) (by decide) (pd 4 L3 (by omega)) (.yes c3)) ?_
  rintro s4 ⟨h4, -, K4, m4⟩
  have L4 := L3.trans (K4.mono (by decide))
  have g3 : R4 s4.r gt3 gt2 gt1 gt10 = R4 s3.r gt3 gt2 gt1 gt10 := by
    unfold R4
    rw [K4.r gt3 (by decide), K4.r gt2 (by decide), K4.r gt1 (by decide), K4.r gt10 (by decide)]
  refine Ex.append (store_mr_ex (pz 8 L4 (by omega))) ?_
  rintro s5 ⟨r5, x5, -, m5⟩
  have L5 : Keep [gt3, gt2, gt1, gt10, gt7, gt6, gt5, gt4] s s5 := ⟨fun q hq => by rw [r5]; exact L4.r q hq, x5.trans L4.x⟩
  refine (store_mr_ex (pz 12 L5 (by omega))).mono ?_
  rintro s6 ⟨r6, x6, -, m6⟩
  refine ⟨?_, ⟨fun q hq => by rw [r6]; exact L5.r q hq, x6.trans L5.x⟩⟩
  have e : R4 s5.r gt7 gt6 gt5 gt4 = R4 s4.r gt7 gt6 gt5 gt4 := by rw [r5]
  rw [m6, m5, e, h4, g2, h2, g3, h3, g1, h1, m4, m3, m2, m1]
  rfl

end Jit
end Verif
