import Verif.Jit.Exec

/-! The four-word blocks of the code generator. -/

namespace Verif
namespace Jit

open Fp Reg

set_option linter.unusedSimpArgs false

/-- registers outside L unchanged, in states written as updates -/
macro "keeps" : tactic => `(tactic| (
  intro q hq
  simp only [List.mem_cons, List.not_mem_nil, or_false, not_or] at hq
  simp [setR_r, setA_r, Function.update_of_ne, hq]))

variable {z3 z2 z1 z0 x3 x2 x1 x0 : Reg}

/-- the words read by a chain are not overwritten before -/
def ChainOk (z3 z2 z1 z0 x3 x2 x1 _x0 : Reg) : Prop :=
  [z3, z2, z1, z0].Nodup ∧ x1 ≠ z0 ∧ x2 ∉ [z1, z0] ∧ x3 ∉ [z2, z1, z0]
instance : Decidable (ChainOk z3 z2 z1 z0 x3 x2 x1 x0) := by unfold ChainOk; infer_instance

theorem chain_rr_ex (isAdd : Bool) (hz : ChainOk z3 z2 z1 z0 x3 x2 x1 x0) (s : St) :
    Ex (chain_rr (o1 isAdd false) (o2 isAdd) z3 z2 z1 z0 x3 x2 x1 x0) s fun t =>
      R4 t.r z3 z2 z1 z0 = (op4 isAdd (R4 s.r z3 z2 z1 z0) (R4 s.r x3 x2 x1 x0) 0).1 ∧
      t.cf = some (op4 isAdd (R4 s.r z3 z2 z1 z0) (R4 s.r x3 x2 x1 x0) 0).2 ∧ Keep [z3, z2, z1, z0] s t ∧ t.m = s.m := by
  obtain ⟨hn, h1, h2, h3⟩ := hz
  simp only [List.nodup_cons, List.mem_cons, List.not_mem_nil, or_false, not_or, List.nodup_nil, not_false_eq_true, and_true] at hn h2 h3
  refine .cons (orr_ok (alu_o1 (.no _) _ _)) (.cons (orr_ok (alu_o2 _ _ _)) (.cons (orr_ok (alu_o2 _ _ _)) (.cons (orr_ok (alu_o2 _ _ _)) (.nil ?_))))
  refine ⟨?_, ?_, ⟨by keeps, rfl⟩, rfl⟩ <;>
  · cases isAdd <;>
      simp [R4, op4, op1, add4, sub4, setA_r, Function.update_of_ne, hn.1, hn.2, h1, h2, h3, Ne.symm hn.1.1, Ne.symm hn.1.2.1, Ne.symm hn.1.2.2,
        Ne.symm hn.2.1.1, Ne.symm hn.2.1.2, Ne.symm hn.2.2]

theorem load_rm_ex {a : Addr} {A : ℕ} {s : St} (hz : [z3, z2, z1, z0].Nodup) (ha : a.avoid [z2, z1, z0]) (hp : Ptr s.r a A 4) :
    Ex (load_rm z3 z2 z1 z0 a) s fun t =>
      R4 t.r z3 z2 z1 z0 = rd4 s.m A ∧ Keep [z3, z2, z1, z0] s t ∧ t.m = s.m ∧ t.cf = s.cf := by
  simp only [List.nodup_cons, List.mem_cons, List.not_mem_nil, or_false, not_or, List.nodup_nil, not_false_eq_true, and_true] at hz
  refine .cons (ld_ok hp (by omega)) (.cons (ld_ok ((hp.plus 1 (by omega)).keep (L := [z2, z1, z0]) ha (by keeps)) (by omega))
    (.cons (ld_ok ((hp.plus 2 (by omega)).keep (L := [z2, z1, z0]) ha (by keeps)) (by omega))
    (.cons (ld_ok ((hp.plus 3 (by omega)).keep (L := [z2, z1, z0]) ha (by keeps)) (by omega)) (.nil ?_))))
  refine ⟨?_, ⟨by keeps, rfl⟩, rfl, rfl⟩
  simp [R4, rd4, setR_r, Function.update_of_ne, hz.1, hz.2, Ne.symm hz.1.1, Ne.symm hz.1.2.1, Ne.symm hz.1.2.2, Ne.symm hz.2.1.1,
    Ne.symm hz.2.1.2, Ne.symm hz.2.2]

theorem store_mr_ex {a : Addr} {A : ℕ} {s : St} (hp : Ptr s.r a A 4) :
    Ex (store_mr a x3 x2 x1 x0) s fun t => t.r = s.r ∧ t.x = s.x ∧ t.cf = s.cf ∧ t.m = wr4 s.m A (R4 s.r x3 x2 x1 x0) := by
  refine .cons (st_ok hp (by omega)) (.cons (st_ok (hp.plus 1 (by omega)) (by omega)) (.cons (st_ok (hp.plus 2 (by omega)) (by omega))
    (.cons (st_ok (hp.plus 3 (by omega)) (by omega)) (.nil ?_))))
  exact ⟨rfl, rfl, rfl, rfl⟩

theorem chain_rm_ex (isAdd wc : Bool) {a : Addr} {A c : ℕ} {s : St} (hz : [z3, z2, z1, z0].Nodup) (ha : a.avoid [z2, z1, z0])
    (hp : Ptr s.r a A 4) (hc : CfIn wc s.cf c) :
    Ex (chain_rm (o1 isAdd wc) (o2 isAdd) z3 z2 z1 z0 a) s fun t =>
      R4 t.r z3 z2 z1 z0 = (op4 isAdd (R4 s.r z3 z2 z1 z0) (rd4 s.m A) c).1 ∧
      t.cf = some (op4 isAdd (R4 s.r z3 z2 z1 z0) (rd4 s.m A) c).2 ∧ Keep [z3, z2, z1, z0] s t ∧ t.m = s.m := by
  simp only [List.nodup_cons, List.mem_cons, List.not_mem_nil, or_false, not_or, List.nodup_nil, not_false_eq_true, and_true] at hz
  refine .cons (orm_ok hp (by omega) (alu_o1 hc _ _))
    (.cons (orm_ok ((hp.plus 1 (by omega)).keep (L := [z2, z1, z0]) ha (by keeps)) (by omega) (alu_o2 _ _ _))
    (.cons (orm_ok ((hp.plus 2 (by omega)).keep (L := [z2, z1, z0]) ha (by keeps)) (by omega) (alu_o2 _ _ _))
    (.cons (orm_ok ((hp.plus 3 (by omega)).keep (L := [z2, z1, z0]) ha (by keeps)) (by omega) (alu_o2 _ _ _)) (.nil ?_))))
  refine ⟨?_, ?_, ⟨by keeps, rfl⟩, rfl⟩ <;>
  · cases isAdd <;>
      simp [R4, rd4, op4, op1, add4, sub4, setA_r, Function.update_of_ne, hz.1, hz.2, Ne.symm hz.1.1, Ne.symm hz.1.2.1, Ne.symm hz.1.2.2,
        Ne.symm hz.2.1.1, Ne.symm hz.2.1.2, Ne.symm hz.2.2]

theorem load_op_rm_ex (g : Cfg) (isAdd wc : Bool) {mx my : Addr} {X Y c : ℕ} {s : St} (hz : [z3, z2, z1, z0].Nodup)
    (hx : mx.avoid [z2, z1, z0]) (hy : my.avoid [z3, z2, z1, z0]) (hpx : Ptr s.r mx X 4) (hpy : Ptr s.r my Y 4) (hc : CfIn wc s.cf c) :
    Ex (load_op_rm g isAdd z3 z2 z1 z0 mx my wc) s fun t =>
      R4 t.r z3 z2 z1 z0 = (op4 isAdd (rd4 s.m X) (rd4 s.m Y) c).1 ∧
      t.cf = some (op4 isAdd (rd4 s.m X) (rd4 s.m Y) c).2 ∧ Keep [z3, z2, z1, z0] s t ∧ t.m = s.m := by
  by_cases hg : g.interleaveLoad = true
  · rw [load_op_rm, if_pos hg]
    simp only [List.nodup_cons, List.mem_cons, List.not_mem_nil, or_false, not_or, List.nodup_nil, not_false_eq_true, and_true] at hz
    refine .cons (ld_ok hpx (by omega)) (.cons (orm_ok (hpy.keep (L := [z3, z2, z1, z0]) hy (by keeps)) (by omega) (alu_o1 hc _ _)) ?_)
    refine .cons (ld_ok ((hpx.plus 1 (by omega)).keep (L := [z2, z1, z0]) hx (by keeps)) (by omega))
      (.cons (orm_ok ((hpy.plus 1 (by omega)).keep (L := [z3, z2, z1, z0]) hy (by keeps)) (by omega) (alu_o2 _ _ _)) ?_)
    refine .cons (ld_ok ((hpx.plus 2 (by omega)).keep (L := [z2, z1, z0]) hx (by keeps)) (by omega))
      (.cons (orm_ok ((hpy.plus 2 (by omega)).keep (L := [z3, z2, z1, z0]) hy (by keeps)) (by omega) (alu_o2 _ _ _)) ?_)
    refine .cons (ld_ok ((hpx.plus 3 (by omega)).keep (L := [z2, z1, z0]) hx (by keeps)) (by omega))
      (.cons (orm_ok ((hpy.plus 3 (by omega)).keep (L := [z3, z2, z1, z0]) hy (by keeps)) (by omega) (alu_o2 _ _ _)) (.nil ?_))
    refine ⟨?_, ?_, ⟨by keeps, rfl⟩, rfl⟩ <;>
    · cases isAdd <;>
        simp [R4, rd4, op4, op1, add4, sub4, setA_r, setR_r, Function.update_of_ne, hz.1, hz.2, Ne.symm hz.1.1, Ne.symm hz.1.2.1,
          Ne.symm hz.1.2.2, Ne.symm hz.2.1.1, Ne.symm hz.2.1.2, Ne.symm hz.2.2]
  · rw [load_op_rm, if_neg hg]
    refine (load_rm_ex hz hx hpx).append ?_
    rintro t ⟨h1, hK, hm, hcf⟩
    refine (chain_rm_ex isAdd wc (A := Y) hz (hy.mono (by simp)) (hpy.keep hy hK.r) (by rw [hcf]; exact hc)).mono ?_
    rintro u ⟨k1, k2, kK, km⟩
    rw [h1, hm] at k1 k2
    exact ⟨k1, k2, ⟨fun q hq => (kK.r q hq).trans (hK.r q hq), kK.x.trans hK.x⟩, km.trans hm⟩

/-- reading n words from X while writing to Z on word by word does not meet a written word -/
def Seq (Z X n : ℕ) : Prop := Z ≤ X ∨ X + n ≤ Z

theorem in_Fp_op_carry_ex (g : Cfg) (isAdd wc : Bool) {mz mx my : Addr} {Z X Y c : ℕ} {s : St}
    (hz : mz.avoid [gt4, gt3, gt2, gt1]) (hx : mx.avoid [gt4, gt3, gt2, gt1]) (hy : my.avoid [gt4, gt3, gt2, gt1])
    (hpz : Ptr s.r mz Z 4) (hpx : Ptr s.r mx X 4) (hpy : Ptr s.r my Y 4)
    (hzx : Seq Z X 4) (hzy : Seq Z Y 4) (hc : CfIn wc s.cf c) :
    Ex (in_Fp_op_carry g isAdd mz mx my wc) s fun t =>
      t.m = wr4 s.m Z (op4 isAdd (rd4 s.m X) (rd4 s.m Y) c).1 ∧
      t.cf = some (op4 isAdd (rd4 s.m X) (rd4 s.m Y) c).2 ∧ Keep [gt4, gt3, gt2, gt1] s t := by
  by_cases hg : g.interleaveLoad = true
  · rw [in_Fp_op_carry, if_pos hg]
    refine .cons (ld_ok hpx (by omega)) (.cons (orm_ok (hpy.keep hy (by keeps)) (by omega) (alu_o1 hc _ _))
      (.cons (st_ok (hpz.keep hz (by keeps)) (by omega)) ?_))
    refine .cons (ld_ok ((hpx.plus 1 (by omega)).keep (hx.plus _) (by keeps)) (by omega))
      (.cons (orm_ok ((hpy.plus 1 (by omega)).keep (hy.plus _) (by keeps)) (by omega) (alu_o2 _ _ _))
      (.cons (st_ok ((hpz.plus 1 (by omega)).keep (hz.plus _) (by keeps)) (by omega)) ?_))
    refine .cons (ld_ok ((hpx.plus 2 (by omega)).keep (hx.plus _) (by keeps)) (by omega))
      (.cons (orm_ok ((hpy.plus 2 (by omega)).keep (hy.plus _) (by keeps)) (by omega) (alu_o2 _ _ _))
      (.cons (st_ok ((hpz.plus 2 (by omega)).keep (hz.plus _) (by keeps)) (by omega)) ?_))
    refine .cons (ld_ok ((hpx.plus 3 (by omega)).keep (hx.plus _) (by keeps)) (by omega))
      (.cons (orm_ok ((hpy.plus 3 (by omega)).keep (hy.plus _) (by keeps)) (by omega) (alu_o2 _ _ _))
      (.cons (st_ok ((hpz.plus 3 (by omega)).keep (hz.plus _) (by keeps)) (by omega)) (.nil ?_)))
    have e1 : X + 1 ≠ Z := by unfold Seq at *; omega
    have e2 : X + 2 ≠ Z := by unfold Seq at *; omega
    have e3 : X + 2 ≠ Z + 1 := by unfold Seq at *; omega
    have e4 : X + 3 ≠ Z := by unfold Seq at *; omega
    have e5 : X + 3 ≠ Z + 1 := by unfold Seq at *; omega
    have e6 : X + 3 ≠ Z + 2 := by unfold Seq at *; omega
    have f1 : Y + 1 ≠ Z := by unfold Seq at *; omega
    have f2 : Y + 2 ≠ Z := by unfold Seq at *; omega
    have f3 : Y + 2 ≠ Z + 1 := by unfold Seq at *; omega
    have f4 : Y + 3 ≠ Z := by unfold Seq at *; omega
    have f5 : Y + 3 ≠ Z + 1 := by unfold Seq at *; omega
    have f6 : Y + 3 ≠ Z + 2 := by unfold Seq at *; omega
    refine ⟨?_, ?_, ⟨by keeps, rfl⟩⟩ <;>
    · cases isAdd <;>
        simp only [R4, rd4, wr4, op4, op1, add4, sub4, setA_r, setR_r, setA_m, setR_m, setA_cf, Function.update_self, Function.update_of_ne e1,
          Function.update_of_ne e2, Function.update_of_ne e3, Function.update_of_ne e4, Function.update_of_ne e5, Function.update_of_ne e6,
          Function.update_of_ne f1, Function.update_of_ne f2, Function.update_of_ne f3, Function.update_of_ne f4, Function.update_of_ne f5,
          Function.update_of_ne f6, if_true, if_false, Bool.false_eq_true]
  · rw [in_Fp_op_carry, if_neg hg]
    refine (load_op_rm_ex g isAdd wc (by decide) (hx.mono (by simp)) hy hpx hpy hc).append ?_
    rintro t ⟨h1, hcf, hK, hm⟩
    refine (store_mr_ex (hpz.keep hz hK.r)).mono ?_
    rintro u ⟨k1, kx, k2, km⟩
    rw [h1, hm] at km
    exact ⟨km, k2.trans hcf, ⟨fun q hq => by rw [k1]; exact hK.r q hq, kx.trans hK.x⟩⟩

/-- the conditional subtraction of the number at P -/
def csub (x p : W4) : W4 := let r := sub4 x p 0; if r.2 = 1 then x else r.1

theorem addModp_eq (x : W4) : addModp x = csub x (pTbl 1) := rfl

/-- `mov t, z; sub z, [a]; cmovc z, t` -/
def csubCode (z3 z2 z1 z0 t3 t2 t1 t0 : Reg) (a : Addr) : List Op :=
  [mv t0 z0, mv t1 z1, mv t2 z2, mv t3 z3] ++ sub_rm z3 z2 z1 z0 a ++ [.cmovc z0 t0, .cmovc z1 t1, .cmovc z2 t2, .cmovc z3 t3]

theorem csub_ex1 {a : Addr} {P : ℕ} {s : St} (ha : a.avoid [gt4, gt3, gt2, gt1, rdx, gt7, gt6, gt5]) (hp : Ptr s.r a P 4) :
    Ex (csubCode gt4 gt3 gt2 gt1 rdx gt7 gt6 gt5 a) s fun t =>
      R4 t.r gt4 gt3 gt2 gt1 = csub (R4 s.r gt4 gt3 gt2 gt1) (rd4 s.m P) ∧ Keep [gt4, gt3, gt2, gt1, rdx, gt7, gt6, gt5] s t ∧ t.m = s.m := by
  unfold csubCode
  rw [List.append_assoc]
  refine .cons (mv_ok _ _ _) (.cons (mv_ok _ _ _) (.cons (mv_ok _ _ _) (.cons (mv_ok _ _ _) ?_)))
  refine (chain_rm_ex false false (A := P) (c := 0) (by decide) (ha.mono (by simp)) (hp.keep ha (by keeps)) (.no _)).append ?_
  rintro t ⟨h1, hc, hK, hm⟩
  have e0 := congrArg W4.w0 h1
  have e1 := congrArg W4.w1 h1
  have e2 := congrArg W4.w2 h1
  have e3 := congrArg W4.w3 h1
  have ek : ∀ q, q ∉ [gt4, gt3, gt2, gt1, rdx, gt7, gt6, gt5] → t.r q = s.r q := by
    intro q hq
    rw [hK.r q (fun h => hq (by revert h; simp only [List.mem_cons]; tauto))]
    revert q; keeps
  have k5 := hK.r gt5 (by decide)
  have k6 := hK.r gt6 (by decide)
  have k7 := hK.r gt7 (by decide)
  have kd := hK.r rdx (by decide)
  simp [setR_r, Function.update_of_ne] at k5 k6 k7 kd
  refine .cons (cmovc_ok hc _ _) (.cons (cmovc_ok (by rw [setR_cf]; exact hc) _ _) (.cons (cmovc_ok (by simp only [setR_cf]; exact hc) _ _)
    (.cons (cmovc_ok (by simp only [setR_cf]; exact hc) _ _) (.nil ⟨?_, ⟨?_, ?_⟩, ?_⟩))))
  · simp only [R4, setR_r, setR_m, Function.update_of_ne, ne_eq, reduceCtorEq, not_false_eq_true, Function.update_self, op4, Bool.false_eq_true,
      if_false] at e0 e1 e2 e3 k5 k6 k7 kd ⊢
    unfold csub
    simp only [e0, e1, e2, e3, k5, k6, k7, kd]
    split_ifs <;> rfl
  · intro q hq
    rw [← ek q hq]
    revert q; keeps
  · exact hK.x
  · exact hm

theorem csub_ex2 {a : Addr} {P : ℕ} {s : St} (ha : a.avoid [gt10, gt9, gt8, gt4, gt3, gt2, gt1, gp1]) (hp : Ptr s.r a P 4) :
    Ex (csubCode gt10 gt9 gt8 gt4 gt3 gt2 gt1 gp1 a) s fun t =>
      R4 t.r gt10 gt9 gt8 gt4 = csub (R4 s.r gt10 gt9 gt8 gt4) (rd4 s.m P) ∧ Keep [gt10, gt9, gt8, gt4, gt3, gt2, gt1, gp1] s t ∧ t.m = s.m := by
  unfold csubCode
  rw [List.append_assoc]
  refine .cons (mv_ok _ _ _) (.cons (mv_ok _ _ _) (.cons (mv_ok _ _ _) (.cons (mv_ok _ _ _) ?_)))
  refine (chain_rm_ex false false (A := P) (c := 0) (by decide) (ha.mono (by simp)) (hp.keep ha (by keeps)) (.no _)).append ?_
  rintro t ⟨h1, hc, hK, hm⟩
  have e0 := congrArg W4.w0 h1
  have e1 := congrArg W4.w1 h1
  have e2 := congrArg W4.w2 h1
  have e3 := congrArg W4.w3 h1
  have ek : ∀ q, q ∉ [gt10, gt9, gt8, gt4, gt3, gt2, gt1, gp1] → t.r q = s.r q := by
    intro q hq
    rw [hK.r q (fun h => hq (by revert h; simp only [List.mem_cons]; tauto))]
    revert q; keeps
  have k5 := hK.r gp1 (by decide)
  have k6 := hK.r gt1 (by decide)
  have k7 := hK.r gt2 (by decide)
  have kd := hK.r gt3 (by decide)
  simp [setR_r, Function.update_of_ne] at k5 k6 k7 kd
  refine .cons (cmovc_ok hc _ _) (.cons (cmovc_ok (by rw [setR_cf]; exact hc) _ _) (.cons (cmovc_ok (by simp only [setR_cf]; exact hc) _ _)
    (.cons (cmovc_ok (by simp only [setR_cf]; exact hc) _ _) (.nil ⟨?_, ⟨?_, ?_⟩, ?_⟩))))
  · simp only [R4, setR_r, setR_m, Function.update_of_ne, ne_eq, reduceCtorEq, not_false_eq_true, Function.update_self, op4, Bool.false_eq_true,
      if_false] at e0 e1 e2 e3 k5 k6 k7 kd ⊢
    unfold csub
    simp only [e0, e1, e2, e3, k5, k6, k7, kd]
    split_ifs <;> rfl
  · intro q hq
    rw [← ek q hq]
    revert q; keeps
  · exact hK.x
  · exact hm

/-- the masked addition after a subtraction with borrow b -/
theorem in_Fp_sub_modp_ex {P b : ℕ} {s : St} (hp : Ptr s.r (pt rax) P 4) (hcf : s.cf = some b) (hb : b = 0 ∨ b = 1)
    (hP : (rd4 s.m P).Ok) :
    Ex in_Fp_sub_modp s fun t =>
      R4 t.r gt4 gt3 gt2 gt1 = (add4 (R4 s.r gt4 gt3 gt2 gt1) (maskW b (rd4 s.m P)) 0).1 ∧
      Keep [gt4, gt3, gt2, gt1, rdx, gt7, gt6, gt5] s t ∧ t.m = s.m := by
  have ha : (pt rax).avoid [gt4, gt3, gt2, gt1, rdx, gt7, gt6, gt5] := by decide
  unfold in_Fp_sub_modp
  have hmask : (sbb (s.r rdx) (s.r rdx) b).1 = if b = 1 then B64 - 1 else 0 := by
    rcases hb with rfl | rfl
    · simp [sbb]
    · simp only [sbb, if_true]; omega
  refine .cons (orr_ok (v := sbb (s.r rdx) (s.r rdx) b) (by simp [alu, hcf, flag])) (.cons (mv_ok _ _ _) (.cons (mv_ok _ _ _) (.cons (mv_ok _ _ _)
    (.cons (orm_ok (hp.keep ha (by keeps)) (by omega) rfl) (.cons (orm_ok ((hp.plus 1 (by omega)).keep (ha.plus _) (by keeps)) (by omega) rfl)
    (.cons (orm_ok ((hp.plus 2 (by omega)).keep (ha.plus _) (by keeps)) (by omega) rfl)
    (.cons (orm_ok ((hp.plus 3 (by omega)).keep (ha.plus _) (by keeps)) (by omega) rfl) ?_)))))))
  refine (chain_rr_ex true (by decide) _).mono ?_
  rintro t ⟨h1, _, hK, hm⟩
  refine ⟨?_, ⟨?_, hK.x⟩, hm⟩
  · rw [h1]
    simp only [R4, setA_r, setR_r, setA_m, setR_m, Function.update_of_ne, ne_eq, reduceCtorEq, not_false_eq_true, Function.update_self, op4,
      if_true, hmask]
    congr 2
    have hand : ∀ w, w < B64 → (B64 - 1) &&& w = w := fun w hw => by
      rw [Nat.and_comm]; exact (Nat.and_two_pow_sub_one_eq_mod w 64).trans (Nat.mod_eq_of_lt hw)
    obtain ⟨p0, p1, p2, p3⟩ := hP
    unfold maskW
    split_ifs with h
    · simp only [rd4] at p0 p1 p2 p3 ⊢
      rw [hand _ p0, hand _ p1, hand _ p2, hand _ p3]
    · simp
  · intro q hq
    rw [hK.r q (fun h => hq (by revert h; simp only [List.mem_cons]; tauto))]
    revert q; keeps

end Jit
end Verif
