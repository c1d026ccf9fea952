import Verif.Jit.Api
import Verif.Snark.Den

/-! The machine code of the SNARK build for the multiplication by xi = 9 + u: `in_Fp_mul_xi_addsub` and
`make_Fp2_mul_xi` (src/zm2.cpp:1467-1541 with `BN_SUPPORT_SNARK`), instruction by instruction. -/

namespace Verif
namespace Jit
namespace Snk

open Reg
open Fp (W4 add4 sub4 adc sbb)
set_option linter.unusedSimpArgs false

/-- `rax - 32 + rdx`, zm2.cpp:1502; the displacement is -32 modulo 2^64 -/
def tblAddr : Addr := { base := rax, idx := some rdx, disp := 2 ^ 64 - 32 }

/-- zm2.cpp:1482-1494: [rdx:gt4:gt3:gt2:gt1] becomes 9 [mx] + [my] or 9 [mx] + p - [my] -/
def xiSum (g : Cfg) (mx my : Addr) (doAdd : Bool) : List Op :=
  mvi gt4 9 :: (mul4x1 g mx gt4 gt5 gt3 gt2 gt1 gt6 ++
    if doAdd then add_rm gt4 gt3 gt2 gt1 my ++ [ori .adc rdx 0]
    else mvi rax (pTblAt g 1) :: (add_rm gt4 gt3 gt2 gt1 (pt rax) ++ ori .adc rdx 0 :: (sub_rm gt4 gt3 gt2 gt1 my ++ [ori .sbb rdx 0])))

/-- zm2.cpp:1495-1500: rdx becomes the offset in the table, rax its second entry -/
def xiOff (g : Cfg) : List Op :=
  [.shld rdx gt4 63, mvi rax Snark.pRev, .mul (.r rdx), .shr rdx 60, .shl rdx 5, mvi rax (pTblAt g 1)]

/-- `in_Fp_mul_xi_addsub`, zm2.cpp:1472-1506 -/
def in_Fp_mul_xi_addsub (g : Cfg) (mz mx my : Addr) (doAdd : Bool) : List Op :=
  xiSum g mx my doAdd ++ (xiOff g ++ (sub_rm gt4 gt3 gt2 gt1 tblAddr ++ (in_Fp_add_modp ++ store_mr mz gt4 gt3 gt2 gt1)))

/-- `in_Fp2_mul_xi`, zm2.cpp:1510-1517 -/
def in_Fp2_mul_xi (g : Cfg) (mz mx : Addr) : List Op :=
  mvi rax (pTblAt g 1) :: (in_Fp_mul_xi_addsub g mz mx (mx.plus 32) false ++ in_Fp_mul_xi_addsub g (mz.plus 32) (mx.plus 32) mx true)

/-- zm2.cpp:3073-3077, multiplication by 9 - u in `make_pointDblLineEval` for b = 82 -/
def in_Fp2_mul_conj (g : Cfg) (mz mx : Addr) : List Op :=
  in_Fp_mul_xi_addsub g mz mx (mx.plus 32) true ++ in_Fp_mul_xi_addsub g (mz.plus 32) (mx.plus 32) mx false

/-- `make_Fp2_mul_xi`, zm2.cpp:1536-1540 -/
def make_Fp2_mul_xi (g : Cfg) : Code := frame 7 0 (ops (in_Fp2_mul_xi g (pt gp1) (pt gp2)))

/-- registers changed by the blocks -/
abbrev xiRegs : List Reg := [gt4, gt5, gt3, gt2, gt1, gt6, gt7, rax, rdx]

theorem ori_adc0 {s : St} {c : ℕ} (h : s.cf = some c) (d : Reg) : doOp s (ori .adc d 0) = .ok (setA s d (adc (s.r d) 0 c)) :=
  ori_ok (by rw [h, Nat.zero_mod]; exact alu_adc rfl _ _)
theorem ori_sbb0 {s : St} {c : ℕ} (h : s.cf = some c) (d : Reg) : doOp s (ori .sbb d 0) = .ok (setA s d (sbb (s.r d) 0 c)) :=
  ori_ok (by rw [h, Nat.zero_mod]; exact alu_sbb rfl _ _)

theorem xiAcc_t (x y : W4) : Snark.xiAcc x y true =
    ((add4 (Fp.mul4x1 x 9).1 y 0).1, ((Fp.mul4x1 x 9).2 + (add4 (Fp.mul4x1 x 9).1 y 0).2) % B64) := by
  unfold Snark.xiAcc
  dsimp only
  rw [if_pos rfl]

theorem xiAcc_f (x y : W4) : Snark.xiAcc x y false =
    ((sub4 (add4 (Fp.mul4x1 x 9).1 (Snark.pTbl 1) 0).1 y 0).1,
     (((Fp.mul4x1 x 9).2 + (add4 (Fp.mul4x1 x 9).1 (Snark.pTbl 1) 0).2) % B64 + B64 -
       (sub4 (add4 (Fp.mul4x1 x 9).1 (Snark.pTbl 1) 0).1 y 0).2) % B64) := by
  unfold Snark.xiAcc
  dsimp only
  rw [if_neg (by decide)]

theorem xiSum_ex (g : Cfg) {mx my : Addr} {X Y : ℕ} {s : St} (doAdd : Bool)
    (hx : mx.avoid xiRegs) (hy : my.avoid xiRegs) (hpx : Ptr s.r mx X 4) (hpy : Ptr s.r my Y 4)
    (hb : 8 * (g.pT + 8) ≤ B64) (hP : rd4 s.m (g.pT + 4) = Snark.pTbl 1) :
    Ex (xiSum g mx my doAdd) s fun t => R4 t.r gt4 gt3 gt2 gt1 = (Snark.xiAcc (rd4 s.m X) (rd4 s.m Y) doAdd).1 ∧
      t.r rdx = (Snark.xiAcc (rd4 s.m X) (rd4 s.m Y) doAdd).2 ∧ Keep xiRegs s t ∧ t.m = s.m := by
  unfold xiSum
  refine .cons (mvi_ok _ _ _) ?_
  have k0 : Ptr (setR s gt4 (9 % B64)).r mx X 4 := hpx.keep hx (by keeps)
  refine Ex.append (mul4x1_ex g (Y := X) (by decide) (hx.mono (by decide)) k0) ?_
  rintro t ⟨h1, h2, K1, m1⟩
  have e9 : (setR s gt4 (9 % B64)).r gt4 = 9 := by simp [setR_r]
  rw [setR_m, e9] at h1 h2
  replace m1 : t.m = s.m := m1
  have K : Keep xiRegs s t := ⟨fun q hq => by
    rw [(K1.mono (M := xiRegs) (by decide)).r q hq]
    revert q; keeps, K1.x⟩
  cases doAdd with
  | true =>
    rw [if_pos rfl]
    refine Ex.append (chain_rm_ex true false (A := Y) (c := 0) (by decide) (hy.mono (by decide)) (hpy.keep hy K.r) (.no _)) ?_
    rintro u ⟨h3, c3, K3, m3⟩
    have d3 := K3.r rdx (by decide)
    rw [h1, m1] at h3 c3
    simp only [op4, if_true] at h3 c3
    rw [xiAcc_t]
    generalize add4 (Fp.mul4x1 (rd4 s.m X) 9).1 (rd4 s.m Y) 0 = q at *
    generalize Fp.mul4x1 (rd4 s.m X) 9 = n at *
    refine .cons (ori_adc0 c3 _) (.nil ⟨?_, ?_, ?_, ?_⟩)
    · rw [← h3]
      simp [R4, setA_r]
    · simp only [setA_r, Function.update_self]
      rw [d3, h2]
      simp only [adc, Nat.add_zero]
    · refine ⟨fun q hq => ?_, ?_⟩
      · rw [← K.r q hq, ← (K3.mono (M := xiRegs) (by decide)).r q hq]
        revert q; keeps
      · rw [setA_x, K3.x, K.x]
    · rw [setA_m, m3, m1]
  | false =>
    rw [if_neg (by decide)]
    refine .cons (mvi_ok _ _ _) ?_
    have e1 : pTblAt g 1 % B64 = 8 * (g.pT + 4) := hpt g 1 (by omega)
    refine Ex.append (chain_rm_ex true false (A := g.pT + 4) (c := 0) (by decide) (by decide)
      (.pt (by rw [setR_r, Function.update_self, e1, Nat.add_zero]) (by omega)) (.no _)) ?_
    rintro u ⟨h3, c3, K3, m3⟩
    have d3 := K3.r rdx (by decide)
    have er : R4 (setR t rax (pTblAt g 1 % B64)).r gt4 gt3 gt2 gt1 = R4 t.r gt4 gt3 gt2 gt1 := by simp [R4, setR_r]
    rw [er, h1, setR_m, m1, hP] at h3 c3
    replace m3 : u.m = s.m := Eq.trans m3 m1
    have Ku : Keep xiRegs s u := ⟨fun q hq => by
      rw [(K3.mono (M := xiRegs) (by decide)).r q hq, ← K.r q hq]
      revert q; keeps, by rw [K3.x]; exact K.x⟩
    refine .cons (ori_adc0 c3 _) ?_
    refine Ex.append (chain_rm_ex false false (A := Y) (c := 0) (by decide) (hy.mono (by decide)) ((hpy.keep hy Ku.r).keep hy (by keeps)) (.no _)) ?_
    rintro v ⟨h4, c4, K4, m4⟩
    have d4 := K4.r rdx (by decide)
    have er' : ∀ w, R4 (setA u rdx w).r gt4 gt3 gt2 gt1 = R4 u.r gt4 gt3 gt2 gt1 := by intro w; simp [R4, setA_r]
    rw [er', h3, setA_m, m3] at h4 c4
    simp only [op4, if_true, Bool.false_eq_true, if_false] at h4 c4 d4
    rw [xiAcc_f]
    generalize sub4 (add4 (Fp.mul4x1 (rd4 s.m X) 9).1 (Snark.pTbl 1) 0).1 (rd4 s.m Y) 0 = o at *
    generalize add4 (Fp.mul4x1 (rd4 s.m X) 9).1 (Snark.pTbl 1) 0 = q at *
    generalize Fp.mul4x1 (rd4 s.m X) 9 = n at *
    refine .cons (ori_sbb0 c4 _) (.nil ⟨?_, ?_, ?_, ?_⟩)
    · rw [← h4]
      simp [R4, setA_r]
    · simp only [setA_r, Function.update_self]
      rw [d4]
      simp only [setA_r, Function.update_self]
      rw [d3]
      have : (setR t rax (pTblAt g 1 % B64)).r rdx = t.r rdx := by simp [setR_r]
      rw [this, h2]
      simp only [sbb, adc, Nat.zero_add, Nat.add_zero]
    · refine ⟨fun q hq => ?_, ?_⟩
      · have a1 := (K4.mono (M := xiRegs) (by decide)).r q hq
        rw [← Ku.r q hq]
        simp only [List.mem_cons, List.not_mem_nil, or_false, not_or] at hq
        simp [setA_r, hq] at a1 ⊢
        exact a1
      · rw [setA_x, K4.x]; exact Ku.x
    · rw [setA_m, m4]; exact m3

theorem shld63 {a b : ℕ} (hb : b < B64) : shld a b 63 = a % 2 * 2 ^ 63 + b / 2 := by
  unfold shld
  norm_num at hb ⊢
  omega

theorem xiOff_ex (g : Cfg) {s : St} (h4 : s.r gt4 < B64) (hb : 8 * (g.pT + 8) ≤ B64) :
    Ex (xiOff g) s fun t => t.r rdx = 32 * Snark.xiIndex (R4 s.r gt4 gt3 gt2 gt1, s.r rdx) ∧ t.r rax = 8 * (g.pT + 4) ∧
      (∀ q, q ≠ rax → q ≠ rdx → t.r q = s.r q) ∧ t.x = s.x ∧ t.m = s.m := by
  have e1 : pTblAt g 1 % B64 = 8 * (g.pT + 4) := hpt g 1 (by omega)
  have e2 : Snark.pRev % B64 = Snark.pRev := by decide
  refine .cons rfl (.cons (mvi_ok _ _ _) (.cons (mul_ok (src_r _ _)) (.cons (shr_ok _ _ _) (.cons (shl_ok _ _ _) (.cons (mvi_ok _ _ _) (.nil ⟨?_, ?_, ?_, rfl, rfl⟩))))))
  · simp only [setR_r, Function.update_self, Function.update_of_ne, ne_eq, reduceCtorEq, not_false_eq_true, e2, shld63 h4]
    unfold Snark.xiIndex R4
    dsimp only
    rw [Nat.mul_comm Snark.pRev]
    have hd : s.r rdx % 2 * 2 ^ 63 + s.r gt4 / 2 < B64 := by norm_num at h4 ⊢; omega
    generalize s.r rdx % 2 * 2 ^ 63 + s.r gt4 / 2 = d at hd ⊢
    unfold Snark.pRev
    norm_num at hd ⊢
    omega
  · simp only [setR_r, Function.update_self, e1]
  · intro q n1 n2
    simp [setR_r, n1, n2]

theorem orm_ea {s : St} {o : Alu} {d : Reg} {a : Addr} {A : ℕ} {v : ℕ × ℕ} (he : ea s.r a = 8 * A)
    (h : alu s.cf (s.r d) (s.m A) o = .ok v) : doOp s (orm o d a) = .ok (setA s d v) := by
  have hl : load s.m (ea s.r a) = .ok (s.m A) := by rw [he, load, if_pos (by omega), Nat.mul_div_cancel_left _ (by omega)]
  simp [orm, doOp, src, hl, h, setA]

theorem tblSub_ex {s : St} {T i : ℕ} (ha : s.r rax = 8 * (T + 4)) (hd : s.r rdx = 32 * i) (hb : 8 * (T + 4 * i + 4) ≤ B64) :
    Ex (sub_rm gt4 gt3 gt2 gt1 tblAddr) s fun t => R4 t.r gt4 gt3 gt2 gt1 = (sub4 (R4 s.r gt4 gt3 gt2 gt1) (rd4 s.m (T + 4 * i)) 0).1 ∧
      Keep [gt4, gt3, gt2, gt1] s t ∧ t.m = s.m := by
  have he : ∀ (r : Reg → ℕ) (k : ℕ), r rax = s.r rax → r rdx = s.r rdx → k < 4 → ea r (tblAddr.plus (8 * k)) = 8 * (T + 4 * i + k) := by
    intro r k h1 h2 hk
    simp only [ea, tblAddr, Addr.plus, idxVal, h1, h2, ha, hd]
    norm_num at hb ⊢
    omega
  have he0 : ea s.r tblAddr = 8 * (T + 4 * i) := by
    have := he s.r 0 rfl rfl (by omega)
    rwa [Nat.mul_zero, Nat.add_zero] at this
  refine .cons (orm_ea he0 (alu_sub _ _ _)) (.cons (orm_ea (he _ 1 ?_ ?_ (by omega)) (alu_sbb rfl _ _)) (.cons (orm_ea (he _ 2 ?_ ?_ (by omega)) (alu_sbb rfl _ _))
    (.cons (orm_ea (he _ 3 ?_ ?_ (by omega)) (alu_sbb rfl _ _)) (.nil ⟨?_, ⟨by keeps, rfl⟩, rfl⟩))))
  all_goals try simp [setA_r]
  simp [R4, rd4, sub4, setA_r]

theorem addModp_eq' (x : W4) : Snark.addModp x = csub x (Snark.pTbl 1) := rfl

/-- what one block stores, as a function of its operands and of the table in memory -/
def xiOut (T : ℕ) (m : ℕ → ℕ) (x y : W4) (doAdd : Bool) : W4 :=
  let a := Snark.xiAcc x y doAdd
  Snark.addModp (sub4 a.1 (rd4 m (T + 4 * Snark.xiIndex a)) 0).1

theorem xiAcc_w3 (x y : W4) (doAdd : Bool) : (Snark.xiAcc x y doAdd).1.w3 < B64 := by
  cases doAdd
  · rw [xiAcc_f]; exact (Fp.sub4_ok _ _ _).2.2.2
  · rw [xiAcc_t]; exact (Fp.add4_ok _ _ _).2.2.2

theorem xiIndex_lt (a : W4 × ℕ) (h : a.1.w3 < B64) : Snark.xiIndex a < 11 := by
  have hd : a.2 % 2 * 2 ^ 63 + a.1.w3 / 2 < B64 := by norm_num at h ⊢; omega
  unfold Snark.xiIndex Snark.pRev
  dsimp only
  generalize a.2 % 2 * 2 ^ 63 + a.1.w3 / 2 = d at hd ⊢
  norm_num at hd ⊢
  omega

theorem xi_ex (g : Cfg) {mz mx my : Addr} {Z X Y : ℕ} {s : St} (doAdd : Bool)
    (hz : mz.avoid xiRegs) (hx : mx.avoid xiRegs) (hy : my.avoid xiRegs)
    (hpz : Ptr s.r mz Z 4) (hpx : Ptr s.r mx X 4) (hpy : Ptr s.r my Y 4)
    (hb : 8 * (g.pT + 44) ≤ B64) (hP : rd4 s.m (g.pT + 4) = Snark.pTbl 1) :
    Ex (in_Fp_mul_xi_addsub g mz mx my doAdd) s fun t =>
      t.m = wr4 s.m Z (xiOut g.pT s.m (rd4 s.m X) (rd4 s.m Y) doAdd) ∧ Keep xiRegs s t := by
  unfold in_Fp_mul_xi_addsub
  refine Ex.append (xiSum_ex g doAdd hx hy hpx hpy (by omega) hP) ?_
  rintro t ⟨h1, h2, K1, m1⟩
  have w3 : t.r gt4 < B64 := by
    have := congrArg W4.w3 h1
    simp only [R4] at this
    rw [this]; exact xiAcc_w3 _ _ _
  refine Ex.append (xiOff_ex g w3 (by omega)) ?_
  rintro u ⟨i1, i2, i3, i4, i5⟩
  rw [h1, h2, Prod.mk.eta] at i1
  have hi : Snark.xiIndex (Snark.xiAcc (rd4 s.m X) (rd4 s.m Y) doAdd) < 11 := xiIndex_lt _ (xiAcc_w3 _ _ _)
  refine Ex.append (tblSub_ex i2 i1 (by omega)) ?_
  rintro v ⟨j1, Kv, mv⟩
  have eu : R4 u.r gt4 gt3 gt2 gt1 = R4 t.r gt4 gt3 gt2 gt1 := by
    simp only [R4]
    rw [i3 gt1 (by decide) (by decide), i3 gt2 (by decide) (by decide), i3 gt3 (by decide) (by decide), i3 gt4 (by decide) (by decide)]
  have mv' : v.m = s.m := by rw [mv, i5, m1]
  refine Ex.append (a := csubCode gt4 gt3 gt2 gt1 rdx gt7 gt6 gt5 (pt rax)) (csub_ex1 (P := g.pT + 4) (by decide) (.pt ?_ (by omega))) ?_
  · rw [Kv.r rax (by decide), i2, Nat.add_zero]
  rintro w ⟨k1, Kw, mw⟩
  have K : Keep xiRegs s w := by
    refine ⟨fun q hq => ?_, by rw [Kw.x, Kv.x, i4, K1.x]⟩
    rw [(Kw.mono (M := xiRegs) (by decide)).r q hq, (Kv.mono (M := xiRegs) (by decide)).r q hq, ← K1.r q hq]
    exact i3 q (by rintro rfl; exact hq (by decide)) (by rintro rfl; exact hq (by decide))
  refine (store_mr_ex (hpz.keep hz K.r)).mono ?_
  rintro z ⟨r3, x3, -, m3⟩
  refine ⟨?_, ⟨fun q hq => by rw [r3]; exact K.r q hq, x3.trans K.x⟩⟩
  rw [m3, k1, mw, mv', hP, j1, eu, h1, i5, m1]
  rfl

theorem rd4_wr4_self (m : ℕ → ℕ) (A : ℕ) (w : W4) : rd4 (wr4 m A w) A = w := by
  unfold rd4 wr4
  simp

/-- the memory after both blocks: component by component, the second one with the first already stored -/
def xi2Mem (T Z X : ℕ) (first : Bool) (m : ℕ → ℕ) : ℕ → ℕ :=
  let m1 := wr4 m Z (xiOut T m (rd4 m X) (rd4 m (X + 4)) first)
  wr4 m1 (Z + 4) (xiOut T m1 (rd4 m1 (X + 4)) (rd4 m1 X) (!first))

theorem xi2_ex (g : Cfg) {mz mx : Addr} {Z X : ℕ} {s : St} (first : Bool) (hz : mz.avoid xiRegs) (hx : mx.avoid xiRegs)
    (hpz : Ptr s.r mz Z 8) (hpx : Ptr s.r mx X 8) (hb : 8 * (g.pT + 44) ≤ B64) (hP : rd4 s.m (g.pT + 4) = Snark.pTbl 1)
    (hd : Apart Z 8 g.pT 40) :
    Ex (in_Fp_mul_xi_addsub g mz mx (mx.plus 32) first ++ in_Fp_mul_xi_addsub g (mz.plus 32) (mx.plus 32) mx (!first)) s fun t =>
      t.m = xi2Mem g.pT Z X first s.m ∧ Keep xiRegs s t := by
  have le4 : ∀ {r : Reg → ℕ} {a : Addr} {A : ℕ}, Ptr r a A 8 → Ptr r a A 4 := fun h => ⟨h.eq, by have := h.le; omega⟩
  unfold Apart at hd
  refine Ex.append (xi_ex g first hz hx (hx.plus _) (le4 hpz) (le4 hpx) (hpx.plus 4 (by omega)) hb hP) ?_
  rintro t ⟨m1, K1⟩
  refine (xi_ex g (!first) (hz.plus _) (hx.plus _) hx ((hpz.keep hz K1.r).plus 4 (by omega)) ((hpx.keep hx K1.r).plus 4 (by omega))
    (le4 (hpx.keep hx K1.r)) hb ?_).mono ?_
  · rw [m1, rd4_wr4_of (by omega), hP]
  rintro u ⟨m2, K2⟩
  refine ⟨?_, K1.trans K2⟩
  rw [m2, m1]
  rfl

theorem in_Fp2_mul_xi_ex (g : Cfg) {mz mx : Addr} {Z X : ℕ} {s : St} (hz : mz.avoid xiRegs) (hx : mx.avoid xiRegs)
    (hpz : Ptr s.r mz Z 8) (hpx : Ptr s.r mx X 8) (hb : 8 * (g.pT + 44) ≤ B64) (hP : rd4 s.m (g.pT + 4) = Snark.pTbl 1)
    (hd : Apart Z 8 g.pT 40) :
    Ex (in_Fp2_mul_xi g mz mx) s fun t => t.m = xi2Mem g.pT Z X false s.m ∧ Keep xiRegs s t := by
  unfold in_Fp2_mul_xi
  refine .cons (mvi_ok _ _ _) ?_
  have k0 : ∀ {a : Addr} {A n : ℕ}, Ptr s.r a A n → a.avoid xiRegs → Ptr (setR s rax (pTblAt g 1 % B64)).r a A n :=
    fun h h' => h.keep h' (by keeps)
  refine (xi2_ex g (s := setR s rax (pTblAt g 1 % B64)) false hz hx (k0 hpz hz) (k0 hpx hx) hb hP hd).mono ?_
  rintro t ⟨h1, K⟩
  refine ⟨h1, fun q hq => ?_, K.x⟩
  rw [K.r q hq]
  revert q; keeps

theorem xi2Mem_of (T Z X : ℕ) (first : Bool) (m : ℕ → ℕ) {i : ℕ} (h : i < Z ∨ Z + 8 ≤ i) : xi2Mem T Z X first m i = m i := by
  unfold xi2Mem
  rw [wr4_of _ _ _ (by omega), wr4_of _ _ _ (by omega)]

theorem xiOut_congr {T : ℕ} {m m' : ℕ → ℕ} (x y : W4) (doAdd : Bool) (h : ∀ i, T ≤ i → i < T + 44 → m' i = m i) :
    xiOut T m' x y doAdd = xiOut T m x y doAdd := by
  have hi : Snark.xiIndex (Snark.xiAcc x y doAdd) < 11 := xiIndex_lt _ (xiAcc_w3 _ _ _)
  unfold xiOut
  dsimp only
  rw [rd4_congr (m := m) (m' := m') fun i a b => h i (by omega) (by omega)]

/-- A call of the SNARK build's `Fp2::mul_xi(z, x)`: pointers in rdi and rsi, rsp at the return address with three words of
stack below it, the ten entries of `s_pTbl` and the one behind them inside the address space, all apart as far as written. -/
structure CallXi (g : Cfg) (s : St) (S z x : ℕ) : Prop where
  words : Words s
  tbl : ∀ i, i < 10 → num s.m (g.pT + 4 * i) 4 = i * Snark.p % 2 ^ 256
  tb : 8 * (g.pT + 44) ≤ 2 ^ 64
  sp : s.r rsp = 8 * S
  room : 3 ≤ S
  top : 8 * (S + 1) < 2 ^ 64
  az : s.r rdi = 8 * z
  ax : s.r rsi = 8 * x
  bz : 8 * (z + 8) ≤ 2 ^ 64
  bx : 8 * (x + 8) ≤ 2 ^ 64
  st : Apart (S - 3) 4 g.pT 44
  sz : Apart (S - 3) 4 z 8
  sx : Apart (S - 3) 4 x 8
  zt : Apart z 8 g.pT 44

/-- `Returns` for the routine alone in the code area -/
def DoesXi (g : Cfg) (s : St) (S z : ℕ) (Q : St → Prop) : Prop :=
  ∀ ra : Sub → ℕ → ℕ, ∃ t, Returns (fun _ => make_Fp2_mul_xi g) ra .Fp2MulXi s t ∧ (∀ q ∈ calleeSaved, t.r q = s.r q) ∧
    (∀ i, (i < z ∨ z + 8 ≤ i) → (i < S - 3 ∨ S ≤ i) → t.m i = s.m i) ∧ Q t

theorem pTbl_of {g : Cfg} {s : St} {S z x : ℕ} (h : CallXi g s S z x) {i : ℕ} (hi : i < 10) : rd4 s.m (g.pT + 4 * i) = Snark.pTbl i := by
  rw [rd4_of h.words.m, h.tbl i hi, W4.of_mod]
  rfl

/-- what the routine stores, for any operands -/
theorem does_xi {g : Cfg} {s : St} {S z x : ℕ} (h : CallXi g s S z x) :
    DoesXi g s S z fun t => ∀ i, z ≤ i → i < z + 8 → t.m i = xi2Mem g.pT z x false s.m i := by
  intro ra
  have hP := pTbl_of h (i := 1) (by omega)
  obtain ⟨_, htbl, htb, hsp, hroom, htop, haz, hax, hbz, hbx, hst, hsz, hsx, hzt⟩ := h
  unfold Apart at hst hsz hsx hzt
  have key : Fn (fun _ => make_Fp2_mul_xi g) ra .Fp2MulXi s fun t => (∀ q ∈ calleeSaved, t.r q = s.r q) ∧
      (∀ i, (i < z ∨ z + 8 ≤ i) → (i < S - 3 ∨ S ≤ i) → t.m i = s.m i) ∧ ∀ i, z ≤ i → i < z + 8 → t.m i = xi2Mem g.pT z x false s.m i := by
    refine Fn.of (c := ops (storeReg 7 0) ++ (ops (in_Fp2_mul_xi g (pt gp1) (pt gp2)) ++ ops (restoreReg 7 0))) ?_ ?_
    · simp [make_Fp2_mul_xi, frame]
    refine Trip.append (Trip.ops (store_ex (S := S) (by omega) hsp (by omega) (by omega))) ?_
    rintro t ⟨t1, -, t3, -, t5, t6⟩
    have tm : ∀ i, ¬(S - 3 ≤ i ∧ i < S) → t.m i = s.m i := fun i hi => t6 i (by omega)
    refine Trip.append (Trip.ops (in_Fp2_mul_xi_ex g (Z := z) (X := x) (by decide) (by decide) (.pt (by rw [t3 _ (by decide) (by decide), haz]; omega) (by omega))
      (.pt (by rw [t3 _ (by decide) (by decide), hax]; omega) (by omega)) (by omega) ?_ (by unfold Apart; omega))) ?_
    · rw [← hP]; exact rd4_congr fun i a b => tm i (by omega)
    rintro u ⟨u1, K⟩
    refine (Trip.ops (rest_ex (B := S - 3) (by omega) (by rw [K.r rsp (by decide), t1]) (by omega))).mono ?_
    rintro v ⟨v1, v2, v3, -, v5⟩
    have um : ∀ i, (i < z ∨ z + 8 ≤ i) → u.m i = t.m i := fun i hi => by rw [u1, xi2Mem_of _ _ _ _ _ hi]
    have hsave : ∀ q ∈ frameL 7 0, v.r q.2 = s.r q.2 := by
      intro q hq
      have := frameL_mem (by omega) hq
      rw [v2 q hq, um _ (by omega), t5 q hq]
    refine ⟨?_, ?_, ?_⟩
    · have e1 : v.r rsp = s.r rsp := by rw [v1, hsp]; omega
      have e2 : ∀ q, q ≠ rsp → q ∉ (gtSaved 7).map Prod.snd → q ≠ r9 → q ∉ xiRegs → v.r q = s.r q := by
        intro q a b c d
        rw [v3 q a b, K.r q d, t3 q a c]
      have s5 := hsave (3 - 1, gt5) (by decide)
      have s6 := hsave (3 - 2, gt6) (by decide)
      have s7 := hsave (3 - 3, gt7) (by decide)
      intro q hq
      simp only [calleeSaved, List.mem_cons, List.not_mem_nil, or_false] at hq
      rcases hq with rfl | rfl | rfl | rfl | rfl | rfl | rfl
      · exact e2 _ (by decide) (by decide) (by decide) (by decide)
      · exact e2 _ (by decide) (by decide) (by decide) (by decide)
      · exact e1
      · exact s5
      · exact s6
      · exact s7
      · exact e2 _ (by decide) (by decide) (by decide) (by decide)
    · intro i a b
      rw [v5, um i a, tm i (by omega)]
    · intro i a b
      have f : ∀ m m' : ℕ → ℕ, (∀ j, ¬(S - 3 ≤ j ∧ j < S) → m' j = m j) → xi2Mem g.pT z x false m' i = xi2Mem g.pT z x false m i := by
        intro m m' hm
        have r1 : rd4 m' x = rd4 m x := rd4_congr fun j a b => hm j (by omega)
        have r2 : rd4 m' (x + 4) = rd4 m (x + 4) := rd4_congr fun j a b => hm j (by omega)
        have r3 := xiOut_congr (T := g.pT) (m := m) (m' := m') (rd4 m x) (rd4 m (x + 4)) false fun j a b => hm j (by omega)
        unfold xi2Mem
        rw [r1, r2, r3]
        generalize xiOut g.pT m (rd4 m x) (rd4 m (x + 4)) false = w
        have hw : ∀ j, ¬(S - 3 ≤ j ∧ j < S) → wr4 m' z w j = wr4 m z w j := by
          intro j hj
          by_cases c : j < z ∨ z + 4 ≤ j
          · rw [wr4_of _ _ _ c, wr4_of _ _ _ c, hm j hj]
          · unfold wr4; simp only [Function.update_apply]; split_ifs <;> first | rfl | (exfalso; omega)
        have r4 : rd4 (wr4 m' z w) x = rd4 (wr4 m z w) x := rd4_congr fun j a b => hw j (by omega)
        have r5 : rd4 (wr4 m' z w) (x + 4) = rd4 (wr4 m z w) (x + 4) := rd4_congr fun j a b => hw j (by omega)
        rw [r4, r5, xiOut_congr _ _ _ fun j a b => hw j (by omega)]
        generalize xiOut g.pT _ _ _ _ = w'
        by_cases c : i < z + 4
        · rw [wr4_of _ (z + 4) w' (by omega), wr4_of _ (z + 4) w' (by omega), hw i (by omega)]
        · unfold wr4; simp only [Function.update_apply]; split_ifs <;> first | rfl | (exfalso; omega)
      rw [v5, u1]
      exact f _ _ tm
  obtain ⟨t, l, e, q⟩ := key
  exact ⟨t, ⟨l, e []⟩, q.1, q.2.1, q.2.2⟩

theorem num_rd4 (m : ℕ → ℕ) (A : ℕ) : num m A 4 = (rd4 m A).val := by
  simp only [num, rd4, W4.val]
  ring

theorem rd4_ok {m : ℕ → ℕ} (hm : ∀ i, m i < B64) (A : ℕ) : (rd4 m A).Ok := ⟨hm _, hm _, hm _, hm _⟩

/-- with canonical operands the table entry lies in the table and the block stores the residue -/
theorem xiOut_val {T : ℕ} {m : ℕ → ℕ} (ht : ∀ i, i < 10 → rd4 m (T + 4 * i) = Snark.pTbl i) {x y : W4} (hx : x.Ok) (hy : y.Ok) (doAdd : Bool)
    (hxp : x.val < Snark.p) (hyp : y.val < Snark.p) :
    (xiOut T m x y doAdd).Ok ∧ (xiOut T m x y doAdd).val = Snark.xiNum x.val y.val doAdd % Snark.p ∧
      Snark.wMulXi x y doAdd = .ok (xiOut T m x y doAdd) := by
  obtain ⟨h1, w, e, h2, h3⟩ := Snark.wMulXi_spec hx hy doAdd hxp hyp
  have : xiOut T m x y doAdd = w := by
    unfold Snark.wMulXi Snark.pTblAt at e
    dsimp only at e
    rw [if_pos h1, Res.bind_ok] at e
    unfold xiOut
    dsimp only
    rw [ht _ h1]
    exact Res.ok.inj e
  rw [this]
  exact ⟨h2, h3, e⟩

end Snk
end Jit
end Verif
