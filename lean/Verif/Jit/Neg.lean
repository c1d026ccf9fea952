import Verif.Jit.Fp2Code

/-! Negation: the routines with a branch on zero. -/

namespace Verif
namespace Jit

open Fp Reg

section
variable {g : Cfg} {ra : Sub → ℕ → ℕ}

abbrev negRegs : List Reg := [gt4, gt3, gt2, gt1, rdx]

theorem or4_ex {a b c d : Reg} {s : St} (h : a ≠ rdx ∧ b ≠ rdx ∧ c ≠ rdx ∧ d ≠ rdx) :
    Ex [mv rdx a, orr .or rdx b, orr .or rdx c, orr .or rdx d] s fun t =>
      t.zf = some ((s.r a ||| s.r b ||| s.r c ||| s.r d) == 0) ∧ Keep [rdx] s t ∧ t.m = s.m := by
  obtain ⟨-, h2, h3, h4⟩ := h
  refine ⟨_, rfl, ?_, ⟨?_, rfl⟩, rfl⟩
  · simp [setR, Function.update, h2, h3, h4]
  · intro q hq
    simp [setR, Function.update]
    intro hc
    exact absurd (List.mem_singleton.2 hc) hq

theorem or_zero {a b : ℕ} : a ||| b = 0 ↔ a = 0 ∧ b = 0 := Nat.or_eq_zero_iff

/-- one number, in a routine where the label is behind the subtraction -/
theorem neg1_at {k : Sub} {i : ℕ} {z x : Addr} {Z X P : ℕ} {s : St} {l : Code} (hz : z.avoid negRegs) (hx : x.avoid negRegs)
    (hpz : Ptr s.r z Z 4) (hpx : Ptr s.r x X 4) (hp : s.r rax = 8 * P) (hPb : 8 * (P + 4) ≤ B64) (hP : rd4 s.m P = pTbl 1)
    (ht : target i (code g k) = .ok (ops (store_mr z gt4 gt3 gt2 gt1) ++ l)) :
    At (code g) ra k (in_Fp_neg1 g i z x ++ l) l s fun t => t.m = wr4 s.m Z (wNeg (rd4 s.m X)) ∧ Keep negRegs s t := by
  have e : in_Fp_neg1 g i z x ++ l = ops (load_rm gt4 gt3 gt2 gt1 x ++ [mv rdx gt1, orr .or rdx gt2, orr .or rdx gt3, orr .or rdx gt4]) ++
      (.jcc .z i :: (ops (load_sub_rm g gt4 gt3 gt2 gt1 (pt rax) x false) ++ (.lab i :: (ops (store_mr z gt4 gt3 gt2 gt1) ++ l)))) := by
    simp [in_Fp_neg1]
  rw [e]
  refine At.trans (At.ops (Q := fun t => t.zf = some (((rd4 s.m X).w0 ||| (rd4 s.m X).w1 ||| (rd4 s.m X).w2 ||| (rd4 s.m X).w3) == 0) ∧
    R4 t.r gt4 gt3 gt2 gt1 = rd4 s.m X ∧ Keep negRegs s t ∧ t.m = s.m) ?_) ?_
  · refine Ex.append (load_rm_ex (by decide) (hx.mono (by decide)) hpx) ?_
    rintro t ⟨h1, K1, m1, -⟩
    refine (or4_ex (by decide)).mono ?_
    rintro u ⟨h2, K2, m2⟩
    refine ⟨?_, ?_, (K1.mono (by decide)).trans (K2.mono (by decide)), m2.trans m1⟩
    · rw [h2, ← h1]; rfl
    · rw [← h1]; unfold R4; rw [K2.r gt1 (by decide), K2.r gt2 (by decide), K2.r gt3 (by decide), K2.r gt4 (by decide)]
  rintro t ⟨hzf, hR, K, hm⟩
  have fin : ∀ u, R4 u.r gt4 gt3 gt2 gt1 = wNeg (rd4 s.m X) → Keep negRegs s u → u.m = s.m →
      At (code g) ra k (ops (store_mr z gt4 gt3 gt2 gt1) ++ l) l u fun t => t.m = wr4 s.m Z (wNeg (rd4 s.m X)) ∧ Keep negRegs s t := by
    intro u h1 h2 h3
    refine At.ops ((store_mr_ex (hpz.keep hz h2.r)).mono ?_)
    rintro v ⟨r3, x3, -, m3⟩
    exact ⟨by rw [m3, h1, h3], fun q hq => by rw [r3]; exact h2.r q hq, x3.trans h2.x⟩
  by_cases h0 : ((rd4 s.m X).w0 ||| (rd4 s.m X).w1 ||| (rd4 s.m X).w2 ||| (rd4 s.m X).w3) = 0
  · refine At.jcc (by simp [holds, hzf, flag, h0]) ht (fin t ?_ K hm)
    rw [hR]; unfold wNeg; rw [if_pos h0]
  · refine At.pass (by simp [holds, hzf, flag, h0]) ?_
    refine At.trans (At.ops (load_op_rm_ex g false false (X := P) (Y := X) (by decide) (by decide) (hx.mono (by decide)) (.pt ?_ hPb)
      (hpx.keep hx K.r) (.no _))) ?_
    · rw [K.r rax (by decide), hp, Nat.add_zero]
    rintro u ⟨h1, -, K1, m1⟩
    refine At.lab (fin u ?_ (K.trans (K1.mono (by decide))) (m1.trans hm))
    rw [h1, hm, hP]; unfold wNeg; rw [if_neg h0]; rfl

theorem target_ops (n : ℕ) (c : List Op) (l : Code) : target n (ops c ++ l) = target n l := by
  induction c with
  | nil => rfl
  | cons o c ih => exact ih
theorem target_cons_op (n : ℕ) (o : Op) (l : Code) : target n (.op o :: l) = target n l := rfl
theorem target_jcc (n i : ℕ) (q : Cond) (l : Code) : target n (.jcc q i :: l) = target n l := rfl
theorem target_jmp (n i : ℕ) (l : Code) : target n (.jmp i :: l) = target n l := rfl
theorem target_call (n : ℕ) (j : Sub) (l : Code) : target n (.call j :: l) = target n l := rfl
theorem target_lab (n : ℕ) (l : Code) : target n (.lab n :: l) = (.ok l : Res Code) := by simp [target]
theorem target_lab_ne {n i : ℕ} (h : i ≠ n) (l : Code) : target n (.lab i :: l) = target n l := by simp [target, h]

def A_Fp2Neg (O : Ops) : Act := act2 2 4 2 4 [(0, 1, true)] (at2 (Q2.neg O)) (rax :: negRegs) [] 0

theorem rd4_wr4_dis {m : ℕ → ℕ} {A X : ℕ} {w : W4} (h : Dis A 4 X 4) : rd4 (wr4 m A w) X = rd4 m X :=
  rd4_wr4_of ((h.sep (by omega) (by omega)).symm)

theorem fn_Fp2Neg (g : Cfg) (ra : Sub → ℕ → ℕ) : SatFn g ra .pFp2Neg (A_Fp2Neg std) := by
  intro s P S hp
  have hal := hp.al (0, 1, true) List.mem_cons_self
  replace hal : Dis (P 0) 8 (P 1) 8 ∨ true = true ∧ P 0 = P 1 := hal
  have hoT := (hp.outT ⟨0, 0, 4⟩ List.mem_cons_self).1
  replace hoT : Dis (P 0) 8 g.pT 40 := hoT
  have a0 : s.r gp1 + 0 = 8 * P 0 := hp.args 0 _ rfl
  have a1 : s.r gp2 + 0 = 8 * P 1 := hp.args 1 _ rfl
  have b0 : 8 * (P 0 + 8) ≤ B64 := hp.bnd 0 (by decide)
  have b1 : 8 * (P 1 + 8) ≤ B64 := hp.bnd 1 (by decide)
  have hpb := hp.tbl.pb
  refine Fn.at (l := []) ?_
  have e : code g .pFp2Neg = ops [mvi rax (pTblAt g 1)] ++ (in_Fp_neg1 g 0 (pt gp1) (pt gp2) ++ (in_Fp_neg1 g 1 (pt gp1 32) (pt gp2 32) ++ [.ret])) := by
    simp [code, in_Fp_neg, List.range_succ, ops, Addr.plus]
    rfl
  have t0 : target 0 (code g .pFp2Neg) = .ok (ops (store_mr (pt gp1) gt4 gt3 gt2 gt1) ++ (in_Fp_neg1 g 1 (pt gp1 32) (pt gp2 32) ++ [.ret])) := by
    rw [e, target_ops]
    unfold in_Fp_neg1
    simp only [List.append_assoc, List.cons_append, target_ops, target_jcc, target_lab]
  have t1 : target 1 (code g .pFp2Neg) = .ok (ops (store_mr (pt gp1 32) gt4 gt3 gt2 gt1) ++ [.ret]) := by
    rw [e, target_ops]
    unfold in_Fp_neg1
    simp only [List.append_assoc, List.cons_append, target_ops, target_jcc, target_lab, target_lab_ne zero_ne_one]
  rw [e]
  refine At.trans (At.ops (Q := fun t => t = setR s rax (8 * (g.pT + 4 * 1))) ⟨_, by rw [← hpt g 1 (by omega)]; rfl, rfl⟩) ?_
  rintro _ rfl
  have hrax : (setR s rax (8 * (g.pT + 4 * 1))).r rax = 8 * (g.pT + 4) := by simp [setR]
  refine At.trans (neg1_at (P := g.pT + 4) (by decide) (by decide) (Z := P 0) (X := P 1) (.pt a0 (by omega)) (.pt a1 (by omega)) hrax (by omega)
    (hp.tbl.p 1 (by omega)) t0) ?_
  rintro t ⟨m1, K1⟩
  have k1 : ∀ q, q ∉ rax :: negRegs → t.r q = s.r q := by
    intro q hq
    rw [List.mem_cons, not_or] at hq
    rw [K1.r q hq.2, setR_r, Function.update_of_ne hq.1]
  replace m1 : t.m = wr4 s.m (P 0) (wNeg (rd4 s.m (P 1))) := m1
  refine At.mono (neg1_at (P := g.pT + 4) (by decide) (by decide) (Z := P 0 + 4) (X := P 1 + 4) (.pt ?_ (by omega)) (.pt ?_ (by omega)) ?_ (by omega) ?_ t1) ?_
  · rw [k1 gp1 (by decide)]; omega
  · rw [k1 gp2 (by decide)]; omega
  · rw [K1.r rax (by decide), hrax]
  · rw [m1, rd4_wr4_dis (hoT.sub le_rfl (by omega) (by omega) (by omega))]; exact hp.tbl.p 1 (by omega)
  rintro u ⟨m2, K2⟩
  have hx1 : rd4 t.m (P 1 + 4) = rd4 s.m (P 1 + 4) := by
    rw [m1]
    rcases hal with h | ⟨-, h⟩
    · exact rd4_wr4_dis (h.sub le_rfl (by omega) (by omega) (by omega))
    · exact rd4_wr4_of (by omega)
  rw [hx1] at m2
  have e1 : Fp.neg (vn 4 s.m (P 1)) = (wNeg (rd4 s.m (P 1))).val := by rw [Fp.neg, hp.good.of4]
  have e2 : Fp.neg (vn 4 s.m (P 1 + 4)) = (wNeg (rd4 s.m (P 1 + 4))).val := by rw [Fp.neg, hp.good.of4]
  refine ⟨?_, ?_, ?_, ?_, by intro e he; cases he⟩
  · intro i hi _
    have h1 := hi ⟨0, 0, 4⟩ List.mem_cons_self
    have h2 := hi ⟨0, 4, 4⟩ (List.mem_cons_of_mem _ List.mem_cons_self)
    simp only [Nat.add_zero] at h1 h2
    rw [m2, wr4_of _ _ _ (by omega), m1, wr4_of _ _ _ (by omega)]
  · intro p hm
    replace hm : p ∈ [(⟨0, 0, 4⟩, Fp.neg (vn 4 s.m (P 1))), (⟨0, 4, 4⟩, Fp.neg (vn 4 s.m (P 1 + 4)))] := hm
    rw [e1, e2] at hm
    simp only [List.mem_cons, List.not_mem_nil, or_false] at hm
    rcases hm with rfl | rfl
    · show vn 4 u.m (P 0) = _
      rw [vn_rd4, m2, rd4_wr4_of (by omega), m1, rd4_wr4]
    · show vn 4 u.m (P 0 + 4) = _
      rw [vn_rd4, m2, rd4_wr4]
  · intro q hq
    replace hq : q ∉ rax :: negRegs := hq
    rw [K2.r q (fun h => hq (List.mem_cons_of_mem _ h)), k1 q hq]
  · intro i _
    rw [K2.x, K1.x]; rfl
theorem ok_Fp2Neg (g : Cfg) (ra : Sub → ℕ → ℕ) : (kCall .pFp2Neg (A_Fp2Neg std)).Ok g ra := call_ok (fn_Fp2Neg g ra) rfl
end

end Jit
end Verif
