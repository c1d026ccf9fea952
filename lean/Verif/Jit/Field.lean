import Verif.Jit.Mod

/-! Blocks of the code generator on one number. -/

namespace Verif
namespace Jit
open Fp Reg
set_option linter.unusedSimpArgs false

/-- registers changed by the blocks on one number -/
abbrev addRegs : List Reg := [gt4, gt3, gt2, gt1, rdx, gt7, gt6, gt5]

theorem pTbl1_Ok : (pTbl 1).Ok := by unfold W4.Ok; decide +kernel

theorem op4_carry (x y : W4) (c : ℕ) : (sub4 x y c).2 = 0 ∨ (sub4 x y c).2 = 1 := by
  unfold sub4 sbb; dsimp only; split_ifs <;> simp

theorem in_Fp_add1_ex (g : Cfg) {mz mx my : Addr} {Z X Y P : ℕ} {s : St}
    (hz : mz.avoid addRegs) (hx : mx.avoid addRegs) (hy : my.avoid addRegs)
    (hpz : Ptr s.r mz Z 4) (hpx : Ptr s.r mx X 4) (hpy : Ptr s.r my Y 4)
    (hp : s.r rax = 8 * P) (hPb : 8 * (P + 4) ≤ B64) (hP : rd4 s.m P = pTbl 1) :
    Ex (in_Fp_add1 g mz mx my) s fun t => t.m = wr4 s.m Z (wAdd (rd4 s.m X) (rd4 s.m Y)) ∧ Keep addRegs s t := by
  unfold in_Fp_add1
  rw [List.append_assoc]
  refine Ex.append (load_op_rm_ex g true false (by decide) (hx.mono (by decide)) (hy.mono (by decide)) hpx hpy (.no _)) ?_
  rintro t ⟨h1, -, K1, m1⟩
  refine Ex.append (a := csubCode gt4 gt3 gt2 gt1 rdx gt7 gt6 gt5 (pt rax)) (csub_ex1 (P := P) (by decide) (.pt ?_ hPb)) ?_
  · rw [K1.r rax (by decide), hp, Nat.add_zero]
  rintro u ⟨h2, K2, m2⟩
  have K := (K1.mono (M := addRegs) (by decide)).trans K2
  refine (store_mr_ex (hpz.keep hz K.r)).mono ?_
  rintro v ⟨r3, x3, -, m3⟩
  refine ⟨?_, ⟨fun q hq => by rw [r3]; exact K.r q hq, x3.trans K.x⟩⟩
  rw [m3, h2, m2, m1, h1, hP]
  rfl

theorem in_Fp_sub1_ex (g : Cfg) {mz mx my : Addr} {Z X Y P : ℕ} {s : St}
    (hz : mz.avoid addRegs) (hx : mx.avoid addRegs) (hy : my.avoid addRegs)
    (hpz : Ptr s.r mz Z 4) (hpx : Ptr s.r mx X 4) (hpy : Ptr s.r my Y 4)
    (hp : s.r rax = 8 * P) (hPb : 8 * (P + 4) ≤ B64) (hP : rd4 s.m P = pTbl 1) :
    Ex (in_Fp_sub1 g mz mx my) s fun t => t.m = wr4 s.m Z (wSub (rd4 s.m X) (rd4 s.m Y)) ∧ Keep addRegs s t := by
  unfold in_Fp_sub1
  rw [List.append_assoc]
  refine Ex.append (load_op_rm_ex g false false (by decide) (hx.mono (by decide)) (hy.mono (by decide)) hpx hpy (.no _)) ?_
  rintro t ⟨h1, hc, K1, m1⟩
  refine Ex.append (in_Fp_sub_modp_ex (P := P) (.pt ?_ hPb) hc (op4_carry _ _ _) ?_) ?_
  · rw [K1.r rax (by decide), hp, Nat.add_zero]
  · rw [m1, hP]; exact pTbl1_Ok
  rintro u ⟨h2, K2, m2⟩
  have K := (K1.mono (M := addRegs) (by decide)).trans K2
  refine (store_mr_ex (hpz.keep hz K.r)).mono ?_
  rintro v ⟨r3, x3, -, m3⟩
  refine ⟨?_, ⟨fun q hq => by rw [r3]; exact K.r q hq, x3.trans K.x⟩⟩
  rw [m3, h2, m2, m1, h1, hP]
  rfl

theorem hpt (g : Cfg) (i : ℕ) (h : 8 * (g.pT + 4 * i + 4) ≤ B64) : pTblAt g i % B64 = 8 * (g.pT + 4 * i) := by
  unfold pTblAt; rw [Nat.mod_eq_of_lt (by omega)]

theorem rd4_wr4_of {m : ℕ → ℕ} {A X : ℕ} {w : W4} (h : X + 4 ≤ A ∨ A + 4 ≤ X) : rd4 (wr4 m A w) X = rd4 m X :=
  rd4_congr fun i h1 h2 => wr4_of m A w (by omega)

/-- `in_FpDbl_add` and `sub_FpDbl_sub` for any modulus w -/
def dAddP (w : W4) (x y : W8) : W8 :=
  let l := add4 x.lo y.lo 0
  ⟨l.1, csub (add4 x.hi y.hi l.2).1 w⟩
def dSubP (w : W4) (x y : W8) : W8 :=
  let l := sub4 x.lo y.lo 0
  let h := sub4 x.hi y.hi l.2
  ⟨l.1, (add4 h.1 (maskW h.2 w) 0).1⟩

theorem in_FpDbl_add1_exP (g : Cfg) (w : W4) {mz mx my : Addr} {Z X Y : ℕ} {s : St}
    (hz : mz.avoid (rax :: addRegs)) (hx : mx.avoid (rax :: addRegs)) (hy : my.avoid (rax :: addRegs))
    (hpz : Ptr s.r mz Z 8) (hpx : Ptr s.r mx X 8) (hpy : Ptr s.r my Y 8) (hzx : Seq Z X 8) (hzy : Seq Z Y 8)
    (hPb : 8 * (g.pT + 8) ≤ B64) (hP : rd4 s.m (g.pT + 4) = w) (hzp : g.pT + 8 ≤ Z ∨ Z + 8 ≤ g.pT + 4) :
    Ex (in_FpDbl_add1 g mz mx my) s fun t => t.m = wr8 s.m Z (dAddP w (rd8 s.m X) (rd8 s.m Y)) ∧ t.r rax = 8 * (g.pT + 4) ∧
      Keep (rax :: addRegs) s t := by
  unfold in_FpDbl_add1
  simp only [List.append_assoc, List.cons_append, List.nil_append]
  refine .cons (mvi_ok _ _ _) ?_
  have k0 : ∀ {a : Addr} {A n : ℕ}, Ptr s.r a A n → a.avoid (rax :: addRegs) → Ptr (setR s rax (pTblAt g 1 % B64)).r a A n :=
    fun h h' => h.keep h' (by keeps)
  have le4 : ∀ {r : Reg → ℕ} {a : Addr} {A : ℕ}, Ptr r a A 8 → Ptr r a A 4 := fun h => ⟨h.eq, by have := h.le; omega⟩
  refine Ex.append (in_Fp_op_carry_ex g true false (hz.mono (by decide)) (hx.mono (by decide)) (hy.mono (by decide)) (le4 (k0 hpz hz)) (le4 (k0 hpx hx))
    (le4 (k0 hpy hy)) (by unfold Seq at *; omega) (by unfold Seq at *; omega) (.no _)) ?_
  rintro t ⟨m1, hc1, K1⟩
  simp only [setR_m] at m1 hc1
  have K1' := K1.mono (M := rax :: addRegs) (by decide)
  have k1 : ∀ {a : Addr} {A n : ℕ}, Ptr s.r a A n → a.avoid (rax :: addRegs) → Ptr t.r a A n := fun h h' => (k0 h h').keep h' K1'.r
  refine Ex.append (load_op_rm_ex g true true (by decide) ((hx.plus _).mono (by decide)) ((hy.plus _).mono (by decide))
    ((k1 hpx hx).plus 4 (by omega)) ((k1 hpy hy).plus 4 (by omega)) (.yes hc1)) ?_
  rintro u ⟨h2, -, K2, m2⟩
  have K2' := K2.mono (M := rax :: addRegs) (by decide)
  have hr : u.r rax = 8 * (g.pT + 4) := by
    rw [K2.r rax (by decide), K1.r rax (by decide)]
    simp only [setR_r, Function.update_self]
    exact hpt g 1 (by omega)
  refine Ex.append (a := csubCode gt4 gt3 gt2 gt1 rdx gt7 gt6 gt5 (pt rax)) (csub_ex1 (P := g.pT + 4) (by decide) (.pt (by rw [hr, Nat.add_zero]) (by omega))) ?_
  rintro v ⟨h3, K3, m3⟩
  have K3' := K3.mono (M := rax :: addRegs) (by decide)
  refine (store_mr_ex (((k1 hpz hz).keep hz (K2'.trans K3').r).plus 4 (by omega))).mono ?_
  rintro v' ⟨r4, x4, -, m4⟩
  have hK : Keep (rax :: addRegs) s v' := by
    refine ⟨fun q hq => ?_, ?_⟩
    · rw [r4, K3'.r q hq, K2'.r q hq, K1'.r q hq]
      revert q; keeps
    · rw [x4, K3.x, K2.x, K1.x]; rfl
  refine ⟨?_, ?_, hK⟩
  · rw [m4, h3, m3, m2, h2, m1]
    rw [rd4_wr4_of (by unfold Seq at *; omega), rd4_wr4_of (by unfold Seq at *; omega), rd4_wr4_of (by unfold Seq at *; omega), hP]
    rfl
  · rw [r4, K3.r rax (by decide), hr]

theorem in_FpDbl_add1_ex (g : Cfg) {mz mx my : Addr} {Z X Y : ℕ} {s : St}
    (hz : mz.avoid (rax :: addRegs)) (hx : mx.avoid (rax :: addRegs)) (hy : my.avoid (rax :: addRegs))
    (hpz : Ptr s.r mz Z 8) (hpx : Ptr s.r mx X 8) (hpy : Ptr s.r my Y 8) (hzx : Seq Z X 8) (hzy : Seq Z Y 8)
    (hPb : 8 * (g.pT + 8) ≤ B64) (hP : rd4 s.m (g.pT + 4) = pTbl 1) (hzp : g.pT + 8 ≤ Z ∨ Z + 8 ≤ g.pT + 4) :
    Ex (in_FpDbl_add1 g mz mx my) s fun t => t.m = wr8 s.m Z (dAdd (rd8 s.m X) (rd8 s.m Y)) ∧ t.r rax = 8 * (g.pT + 4) ∧
      Keep (rax :: addRegs) s t :=
  in_FpDbl_add1_exP g (pTbl 1) hz hx hy hpz hpx hpy hzx hzy hPb hP hzp

theorem sub_FpDbl_sub_exP (g : Cfg) (w : W4) (hw : w.Ok) {mz mx my : Addr} {Z X Y : ℕ} {s : St}
    (hz : mz.avoid (rax :: addRegs)) (hx : mx.avoid (rax :: addRegs)) (hy : my.avoid (rax :: addRegs))
    (hpz : Ptr s.r mz Z 8) (hpx : Ptr s.r mx X 8) (hpy : Ptr s.r my Y 8) (hzx : Seq Z X 8) (hzy : Seq Z Y 8)
    (hPb : 8 * (g.pT + 8) ≤ B64) (hP : rd4 s.m (g.pT + 4) = w) (hzp : g.pT + 8 ≤ Z ∨ Z + 8 ≤ g.pT + 4) :
    Ex (sub_FpDbl_sub g mz mx my) s fun t => t.m = wr8 s.m Z (dSubP w (rd8 s.m X) (rd8 s.m Y)) ∧ t.r rax = 8 * (g.pT + 4) ∧
      Keep (rax :: addRegs) s t := by
  unfold sub_FpDbl_sub
  simp only [List.append_assoc, List.cons_append, List.nil_append]
  refine .cons (mvi_ok _ _ _) ?_
  have k0 : ∀ {a : Addr} {A n : ℕ}, Ptr s.r a A n → a.avoid (rax :: addRegs) → Ptr (setR s rax (pTblAt g 1 % B64)).r a A n :=
    fun h h' => h.keep h' (by keeps)
  have le4 : ∀ {r : Reg → ℕ} {a : Addr} {A : ℕ}, Ptr r a A 8 → Ptr r a A 4 := fun h => ⟨h.eq, by have := h.le; omega⟩
  refine Ex.append (in_Fp_op_carry_ex g false false (hz.mono (by decide)) (hx.mono (by decide)) (hy.mono (by decide)) (le4 (k0 hpz hz)) (le4 (k0 hpx hx))
    (le4 (k0 hpy hy)) (by unfold Seq at *; omega) (by unfold Seq at *; omega) (.no _)) ?_
  rintro t ⟨m1, hc1, K1⟩
  simp only [setR_m] at m1 hc1
  have K1' := K1.mono (M := rax :: addRegs) (by decide)
  have k1 : ∀ {a : Addr} {A n : ℕ}, Ptr s.r a A n → a.avoid (rax :: addRegs) → Ptr t.r a A n := fun h h' => (k0 h h').keep h' K1'.r
  refine Ex.append (load_op_rm_ex g false true (by decide) ((hx.plus _).mono (by decide)) ((hy.plus _).mono (by decide))
    ((k1 hpx hx).plus 4 (by omega)) ((k1 hpy hy).plus 4 (by omega)) (.yes hc1)) ?_
  rintro u ⟨h2, hc2, K2, m2⟩
  have K2' := K2.mono (M := rax :: addRegs) (by decide)
  have hr : u.r rax = 8 * (g.pT + 4) := by
    rw [K2.r rax (by decide), K1.r rax (by decide)]
    simp only [setR_r, Function.update_self]
    exact hpt g 1 (by omega)
  have hPu : rd4 u.m (g.pT + 4) = w := by rw [m2, m1, rd4_wr4_of (by omega), hP]
  refine Ex.append (in_Fp_sub_modp_ex (P := g.pT + 4) (.pt (by rw [hr, Nat.add_zero]) (by omega)) hc2 (op4_carry _ _ _) (by rw [hPu]; exact hw)) ?_
  rintro v ⟨h3, K3, m3⟩
  have K3' := K3.mono (M := rax :: addRegs) (by decide)
  refine (store_mr_ex (((k1 hpz hz).keep hz (K2'.trans K3').r).plus 4 (by omega))).mono ?_
  rintro v' ⟨r4, x4, -, m4⟩
  have hK : Keep (rax :: addRegs) s v' := by
    refine ⟨fun q hq => ?_, ?_⟩
    · rw [r4, K3'.r q hq, K2'.r q hq, K1'.r q hq]
      revert q; keeps
    · rw [x4, K3.x, K2.x, K1.x]; rfl
  refine ⟨?_, ?_, hK⟩
  · rw [m4, h3, m3, hPu, m2, h2, m1]
    rw [rd4_wr4_of (by unfold Seq at *; omega), rd4_wr4_of (by unfold Seq at *; omega)]
    rfl
  · rw [r4, K3.r rax (by decide), hr]

/-- the bodies of `pFpDblAddNC` and `pFpDblSubNC` -/

theorem sub_FpDbl_sub_ex (g : Cfg) {mz mx my : Addr} {Z X Y : ℕ} {s : St}
    (hz : mz.avoid (rax :: addRegs)) (hx : mx.avoid (rax :: addRegs)) (hy : my.avoid (rax :: addRegs))
    (hpz : Ptr s.r mz Z 8) (hpx : Ptr s.r mx X 8) (hpy : Ptr s.r my Y 8) (hzx : Seq Z X 8) (hzy : Seq Z Y 8)
    (hPb : 8 * (g.pT + 8) ≤ B64) (hP : rd4 s.m (g.pT + 4) = pTbl 1) (hzp : g.pT + 8 ≤ Z ∨ Z + 8 ≤ g.pT + 4) :
    Ex (sub_FpDbl_sub g mz mx my) s fun t => t.m = wr8 s.m Z (dSub (rd8 s.m X) (rd8 s.m Y)) ∧ t.r rax = 8 * (g.pT + 4) ∧
      Keep (rax :: addRegs) s t :=
  sub_FpDbl_sub_exP g (pTbl 1) pTbl1_Ok hz hx hy hpz hpx hpy hzx hzy hPb hP hzp

theorem dblNC_ex (g : Cfg) (isAdd : Bool) {mz mx my : Addr} {Z X Y : ℕ} {s : St}
    (hz : mz.avoid [gt4, gt3, gt2, gt1]) (hx : mx.avoid [gt4, gt3, gt2, gt1]) (hy : my.avoid [gt4, gt3, gt2, gt1])
    (hpz : Ptr s.r mz Z 8) (hpx : Ptr s.r mx X 8) (hpy : Ptr s.r my Y 8) (hzx : Seq Z X 8) (hzy : Seq Z Y 8) :
    Ex (in_Fp_op_carry g isAdd mz mx my false ++ in_Fp_op_carry g isAdd (mz.plus 32) (mx.plus 32) (my.plus 32) true) s fun t =>
      t.m = wr8 s.m Z ((if isAdd then dAddNC else dSubNC) (rd8 s.m X) (rd8 s.m Y)) ∧ Keep [gt4, gt3, gt2, gt1] s t := by
  have le4 : ∀ {r : Reg → ℕ} {a : Addr} {A : ℕ}, Ptr r a A 8 → Ptr r a A 4 := fun h => ⟨h.eq, by have := h.le; omega⟩
  refine Ex.append (in_Fp_op_carry_ex g isAdd false hz hx hy (le4 hpz) (le4 hpx) (le4 hpy) (by unfold Seq at *; omega)
    (by unfold Seq at *; omega) (.no _)) ?_
  rintro t ⟨m1, hc1, K1⟩
  refine Ex.mono (in_Fp_op_carry_ex g isAdd true (hz.plus _) (hx.plus _) (hy.plus _) ((hpz.keep hz K1.r).plus 4 (by omega)) ((hpx.keep hx K1.r).plus 4 (by omega))
    ((hpy.keep hy K1.r).plus 4 (by omega)) (by unfold Seq at *; omega) (by unfold Seq at *; omega) (.yes hc1)) ?_
  rintro u ⟨m2, -, K2⟩
  refine ⟨?_, K1.trans K2⟩
  rw [m2, m1, rd4_wr4_of (by unfold Seq at *; omega), rd4_wr4_of (by unfold Seq at *; omega)]
  cases isAdd <;> rfl

theorem shrd_ok (s : St) (d q : Reg) (n : ℕ) : doOp s (.shrd d q n) =
    .ok { setR s d (Fp.shrd (s.r d) (s.r q) n) with cf := none, zf := some (Fp.shrd (s.r d) (s.r q) n == 0) } := rfl

theorem shrn_ex {x3 x2 x1 x0 : Reg} (n : ℕ) (s : St) (hn : [x3, x2, x1, x0].Nodup) :
    Ex (shrn x3 x2 x1 x0 n) s fun t => R4 t.r x3 x2 x1 x0 = wShr n (R4 s.r x3 x2 x1 x0) ∧ Keep [x3, x2, x1, x0] s t ∧ t.m = s.m := by
  have hr : [x0, x1, x2, x3].Nodup := by simpa using List.nodup_reverse.mpr hn
  simp only [List.nodup_cons, List.mem_cons, List.not_mem_nil, or_false, not_or, List.nodup_nil, not_false_eq_true, and_true] at hn hr
  refine .cons (shrd_ok _ _ _ _) (.cons (shrd_ok _ _ _ _) (.cons (shrd_ok _ _ _ _) (.cons (shr_ok _ _ _) (.nil ⟨?_, ⟨by keeps, rfl⟩, rfl⟩))))
  simp [R4, wShr, setR_r, hn, hr]

theorem sub_Fp_divBy2_ex (g : Cfg) {mz mx : Addr} {Z X : ℕ} {s : St}
    (hz : mz.avoid [gt4, gt3, gt2, gt1, rdx, gt5]) (hx : mx.avoid [gt4, gt3, gt2, gt1, rdx, gt5])
    (hpz : Ptr s.r mz Z 4) (hpx : Ptr s.r mx X 4) (hb : 8 * (g.hT + 8) ≤ B64) (hH : ∀ i, i < 2 → rd4 s.m (g.hT + 4 * i) = halfTbl i) :
    Ex (sub_Fp_divBy2 g mz mx) s fun t => t.m = wr4 s.m Z (wDivBy2 (rd4 s.m X)) ∧ Keep [gt4, gt3, gt2, gt1, rdx, gt5] s t := by
  unfold sub_Fp_divBy2
  simp only [List.append_assoc, List.cons_append, List.nil_append]
  refine .cons (ld_ok hpx (by omega)) (.cons (ori_ok (v := (s.m X % 2, 0)) ?_) (.cons (shl_ok _ _ _) ?_))
  · simp [alu, setR_r]
  refine Ex.append (load_rm_ex (A := X) (by decide) (hx.mono (by decide)) (hpx.keep hx (by keeps))) ?_
  rintro t ⟨h1, K1, m1, -⟩
  refine Ex.append (shrn_ex 1 t (by decide)) ?_
  rintro u ⟨h2, K2, m2⟩
  have hd : u.r rdx = 32 * (s.m X % 2) := by
    rw [K2.r rdx (by decide), K1.r rdx (by decide)]
    simp only [setR_r, setA_r, Function.update_self]
    omega
  replace m1 : t.m = s.m := m1
  replace h1 : R4 t.r gt4 gt3 gt2 gt1 = rd4 s.m X := h1
  refine .cons (mvi_ok _ _ _) (.cons (orr_ok (alu_add _ _ _)) ?_)
  refine Ex.append (chain_rm_ex true false (A := g.hT + 4 * (s.m X % 2)) (c := 0) (by decide) (by decide) (.pt ?_ (by omega)) (.no _)) ?_
  · simp [setA_r, setR_r, hd, adc]; omega
  rintro v ⟨h3, -, K3, m3⟩
  have hK : Keep [gt4, gt3, gt2, gt1, rdx, gt5] s v := by
    refine ⟨fun q hq => ?_, ?_⟩
    · rw [(K3.mono (M := [gt4, gt3, gt2, gt1, rdx, gt5]) (by decide)).r q hq]
      have e1 := (K1.mono (M := [gt4, gt3, gt2, gt1, rdx, gt5]) (by decide)).r q hq
      have e2 := (K2.mono (M := [gt4, gt3, gt2, gt1, rdx, gt5]) (by decide)).r q hq
      simp only [List.mem_cons, List.not_mem_nil, or_false, not_or] at hq
      simp [setA_r, setR_r, hq, e2, e1]
    · rw [K3.x]; show u.x = _; rw [K2.x, K1.x]; rfl
  refine (store_mr_ex (hpz.keep hz hK.r)).mono ?_
  rintro w ⟨r4, x4, -, m4⟩
  refine ⟨?_, ⟨fun q hq => by rw [r4]; exact hK.r q hq, x4.trans hK.x⟩⟩
  have e3 : R4 (setA (setR u gt5 (8 * g.hT % B64)) rdx (adc ((setR u gt5 (8 * g.hT % B64)).r rdx) ((setR u gt5 (8 * g.hT % B64)).r gt5) 0)).r gt4 gt3 gt2 gt1 =
      R4 u.r gt4 gt3 gt2 gt1 := by simp [R4, setA_r, setR_r]
  rw [m4, h3, m3, e3, h2, h1]
  simp only [setA_m, setR_m, m2, m1]
  rw [hH _ (by omega)]
  rfl

set_option maxHeartbeats 800000 in
theorem fast_modp_ex (g : Cfg) {x3 x2 x1 x0 t0 t1 t2 t3 : Reg} {s : St} (hn : [x3, x2, x1, x0, t0, t1, t2, t3, rax, rdx].Nodup)
    (hx : s.r x3 < B64) (hb : 8 * (g.pT + 32) ≤ B64) (hP : ∀ i, i < 8 → rd4 s.m (g.pT + 4 * i) = pTbl i) :
    Ex (fast_modp g x3 x2 x1 x0 t0 t1 t2 t3) s fun t => R4 t.r x3 x2 x1 x0 = wFastModp (R4 s.r x3 x2 x1 x0) ∧
      Keep [x3, x2, x1, x0, t0, t1, t2, t3, rax, rdx] s t ∧ t.m = s.m := by
  have hr : [rdx, rax, t3, t2, t1, t0, x0, x1, x2, x3].Nodup := by simpa using List.nodup_reverse.mpr hn
  simp only [List.nodup_cons, List.mem_cons, List.not_mem_nil, or_false, not_or, List.nodup_nil, not_false_eq_true, and_true] at hn hr
  have h0 : pTblAt g 0 % B64 = 8 * g.pT := hpt g 0 (by omega)
  unfold fast_modp
  simp only [List.append_assoc, List.cons_append, List.nil_append]
  refine .cons (mv_ok _ _ _) (.cons (shr_ok _ _ _) (.cons (shl_ok _ _ _) (.cons (mvi_ok _ _ _) ?_)))
  refine Ex.append (chain_rm_ex false false (A := g.pT + 4 * (s.r x3 / 2 ^ 61)) (c := 0) (by simp [hn, hr]) (by simp [Addr.avoid, hn, hr]) ⟨?_, by omega⟩ (.no _)) ?_
  · simp only [setR_r, idxVal, h0]
    simp [hn, hr]
    omega
  rintro t ⟨h1, hc, K1, m1⟩
  replace m1 : t.m = s.m := m1
  have hi : s.r x3 / 2 ^ 61 < 8 := by omega
  have hin : R4 (setR s rdx (s.r x3)).r x3 x2 x1 x0 = R4 s.r x3 x2 x1 x0 := by simp [R4, setR_r, hn, hr]
  obtain ⟨b, hbd⟩ : ∃ b, b = (sub4 (R4 s.r x3 x2 x1 x0) (pTbl (s.r x3 / 2 ^ 61)) 0).2 := ⟨_, rfl⟩
  have hb1 : b = 0 ∨ b = 1 := by rw [hbd]; exact op4_carry _ _ _
  have h1' : R4 t.r x3 x2 x1 x0 = (sub4 (R4 s.r x3 x2 x1 x0) (pTbl (s.r x3 / 2 ^ 61)) 0).1 := by
    rw [h1, ← hP _ hi]
    simp [R4, setR_r, hn, hr, op4]
  have hc' : t.cf = some b := by
    rw [hc, hbd, ← hP _ hi]
    simp [R4, setR_r, hn, hr, op4]
  have hra : t.r rax = 8 * g.pT := by
    rw [K1.r rax (by simp [hn, hr])]
    simp only [setR_r, Function.update_self, h0]
  clear h1 hc
  have hmask : ∀ a, (sbb a a b).1 = if b = 1 then B64 - 1 else 0 := by
    intro a
    rcases hb1 with h | h <;> rw [h]
    · simp [sbb]
    · simp only [sbb, if_true]; omega
  refine .cons (orr_ok (alu_sbb hc' _ _)) ?_
  refine Ex.append (load_rm_ex (A := g.pT + 4) (by simp [hn, hr]) (by simp [Addr.avoid, pt, hn, hr]) (.pt (by simp [setA_r, hn, hr, hra]; omega) (by omega))) ?_
  rintro u ⟨h2, K2, m2, -⟩
  replace m2 : u.m = s.m := Eq.trans m2 m1
  have h2' : R4 u.r t3 t2 t1 t0 = pTbl 1 := by rw [h2]; show rd4 t.m _ = _; rw [m1]; exact hP 1 (by omega)
  have hd : u.r rdx = if b = 1 then B64 - 1 else 0 := by
    rw [K2.r rdx (by simp [hn, hr])]
    simp only [setA_r, Function.update_self, hmask]
  have hx' : R4 u.r x3 x2 x1 x0 = R4 t.r x3 x2 x1 x0 := by
    unfold R4
    rw [K2.r x0 (by simp [hn, hr]), K2.r x1 (by simp [hn, hr]), K2.r x2 (by simp [hn, hr]), K2.r x3 (by simp [hn, hr])]
    simp [setA_r, hn, hr]
  refine .cons (orr_ok (v := (u.r t0 &&& u.r rdx, 0)) rfl) (.cons (orr_ok (v := (u.r t1 &&& u.r rdx, 0)) ?_) (.cons (orr_ok (v := (u.r t2 &&& u.r rdx, 0)) ?_)
    (.cons (orr_ok (v := (u.r t3 &&& u.r rdx, 0)) ?_) ?_)))
  · simp [alu, setA_r, hn, hr]
  · simp [alu, setA_r, hn, hr]
  · simp [alu, setA_r, hn, hr]
  refine (chain_rr_ex true (by simp [ChainOk, hn, hr]) _).mono ?_
  rintro v ⟨h3, -, K3, m3⟩
  have hand : ∀ w, w < B64 → w &&& (B64 - 1) = w := fun w hw => (Nat.and_two_pow_sub_one_eq_mod w 64).trans (Nat.mod_eq_of_lt hw)
  have f0 := congrArg W4.w0 h2'
  have f1 := congrArg W4.w1 h2'
  have f2 := congrArg W4.w2 h2'
  have f3 := congrArg W4.w3 h2'
  simp only [R4] at f0 f1 f2 f3
  obtain ⟨p0, p1, p2, p3⟩ := pTbl1_Ok
  have hmk : (⟨u.r t0 &&& u.r rdx, u.r t1 &&& u.r rdx, u.r t2 &&& u.r rdx, u.r t3 &&& u.r rdx⟩ : W4) = maskW b (pTbl 1) := by
    rw [f0, f1, f2, f3, hd]
    unfold maskW
    split_ifs
    · rw [hand _ p0, hand _ p1, hand _ p2, hand _ p3]
    · simp
  refine ⟨?_, ⟨fun q hq => ?_, ?_⟩, ?_⟩
  · rw [h3]
    have e1 : ∀ a b c d : ℕ × ℕ, R4 (setA (setA (setA (setA u t0 a) t1 b) t2 c) t3 d).r x3 x2 x1 x0 = R4 u.r x3 x2 x1 x0 := by
      intros; simp [R4, setA_r, hn, hr]
    have e2 : ∀ a b c d : ℕ × ℕ, R4 (setA (setA (setA (setA u t0 a) t1 b) t2 c) t3 d).r t3 t2 t1 t0 = ⟨a.1, b.1, c.1, d.1⟩ := by
      intros; simp [R4, setA_r, hn, hr]
    rw [e1, e2, hx', h1']
    simp only [op4, if_true]
    rw [hmk, hbd]
    rfl
  · have a1 := (K1.mono (M := [x3, x2, x1, x0, t0, t1, t2, t3, rax, rdx]) (by simp)).r q hq
    have a2 := (K2.mono (M := [x3, x2, x1, x0, t0, t1, t2, t3, rax, rdx]) (by simp)).r q hq
    have a3 := (K3.mono (M := [x3, x2, x1, x0, t0, t1, t2, t3, rax, rdx]) (by simp)).r q hq
    simp only [List.mem_cons, List.not_mem_nil, or_false, not_or] at hq
    simp [setA_r, setR_r, hq] at a1 a2 a3
    rw [a3, a2, a1]
  · rw [K3.x]; show u.x = _; rw [K2.x]; show t.x = _; rw [K1.x]; rfl
  · rw [m3]; exact m2

end Jit
end Verif
