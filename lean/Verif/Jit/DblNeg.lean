import Verif.Jit.Simple

/-! `DblNeg` and `Fp2DblNeg`: the test for zero includes the pointer to the result, so that the branch for zero is not taken. -/

namespace Verif
namespace Jit

open Fp Reg

section
variable {g : Cfg} {ra : Sub → ℕ → ℕ} {s : St}

abbrev dnegRegs : List Reg := [rax, gt4, gt3, gt2, gt1, rdx]

theorem Ptr.less {r : Reg → ℕ} {a : Addr} {A n k : ℕ} (h : Ptr r a A n) (hk : k ≤ n) : Ptr r a A k := ⟨h.eq, by have := h.le; omega⟩

theorem orp_ex {a b c : Reg} (h0 : s.r gp1 ≠ 0) :
    Ex [orr .or rdx b, orr .or rdx c, orr .or rdx a, orr .or rdx gp1] s fun t => t.zf = some false ∧ Keep [rdx] s t ∧ t.m = s.m := by
  refine ⟨_, rfl, ?_, ⟨?_, rfl⟩, rfl⟩
  · simp [setR, Function.update, h0]
  · intro q hq
    simp [setR, Function.update]
    intro hc
    exact absurd (List.mem_singleton.2 hc) hq

/-- what is behind the label `.neg` -/
def dneg_tail (g : Cfg) (i : ℕ) (z x : Addr) : Code :=
  ops (mvi rax (pTblAt g 0) :: in_Fp_subNC g z (pt rax) x ++ in_Fp_sbbNC g (z.plus 32) (pt rax 32) (x.plus 32)) ++ [.lab (i + 1)]

theorem dneg_at {k : Sub} {i : ℕ} {z x : Addr} {Z X : ℕ} {l : Code} (hz : z.avoid dnegRegs) (hx : x.avoid dnegRegs)
    (hpz : Ptr s.r z Z 8) (hpx : Ptr s.r x X 8) (h0 : s.r gp1 ≠ 0) (hT : Tbl g s.m) (hd : Dis Z 8 g.pT 40) (hzx : Z ≤ X ∨ X + 8 ≤ Z)
    (ht : target i (code g k) = .ok (dneg_tail g i z x ++ l)) :
    At (code g) ra k (in_FpDbl_neg g i z x ++ l) l s fun t => t.m = wr8 s.m Z (dNeg (rd8 s.m X)) ∧ Keep dnegRegs s t := by
  have hpb := hT.pb
  have hd' := hd.sep (by omega) (by omega)
  have e : in_FpDbl_neg g i z x ++ l = ops (load_rm gt4 gt3 gt2 gt1 x ++ (mv rdx gt4 :: ([orr .or rdx gt3, orr .or rdx gt2, orr .or rdx gp1] ++
      (load_rm gt4 gt3 gt2 gt1 (x.plus 32) ++ [orr .or rdx gt4, orr .or rdx gt3, orr .or rdx gt2, orr .or rdx gp1])))) ++
      (.jcc .nz i :: (ops (store_mr z rdx rdx rdx rdx ++ store_mr (z.plus 32) rdx rdx rdx rdx) ++
      (.jmp (i + 1) :: (.lab i :: (dneg_tail g i z x ++ l))))) := by
    simp [in_FpDbl_neg, dneg_tail]
  rw [e]
  refine At.trans (At.ops (Q := fun t => t.zf = some false ∧ Keep dnegRegs s t ∧ t.m = s.m) ?_) ?_
  · refine Ex.append (load_rm_ex (by decide) (hx.mono (by decide)) (hpx.less (by omega))) ?_
    rintro t ⟨-, K1, m1, -⟩
    refine .cons (mv_ok _ _ _) ?_
    refine Ex.append (P := fun u => Keep dnegRegs s u ∧ u.m = s.m) ?_ ?_
    · refine ⟨_, rfl, ⟨?_, K1.x⟩, m1⟩
      intro q hq
      have : q ≠ rdx := fun h => hq (by rw [h]; decide)
      simp only [setR, Function.update_of_ne this]
      exact K1.r q fun h => hq (by revert h; simp only [List.mem_cons]; tauto)
    rintro u ⟨K2, m2⟩
    refine Ex.append (load_rm_ex (by decide) ((hx.plus 32).mono (by decide)) ((hpx.keep hx K2.r).plus 4 (by omega))) ?_
    rintro v ⟨-, K3, m3, -⟩
    refine (orp_ex ?_).mono ?_
    · rw [K3.r gp1 (by decide), K2.r gp1 (by decide)]; exact h0
    rintro w ⟨z4, K4, m4⟩
    exact ⟨z4, (K2.trans (K3.mono (by decide))).trans (K4.mono (by decide)), m4.trans (m3.trans m2)⟩
  rintro t ⟨hzf, K, hm⟩
  refine At.jcc (by simp [holds, hzf, flag]) ht ?_
  unfold dneg_tail
  rw [List.append_assoc]
  refine At.trans (At.ops (Q := fun u => u.m = wr8 s.m Z (dNeg (rd8 s.m X)) ∧ Keep dnegRegs s u) ?_) ?_
  swap
  · intro u hu
    exact At.lab (At.refl hu)
  rw [List.cons_append]
  refine .cons (t := setR t rax (8 * (g.pT + 4 * 0))) (by rw [← hpt g 0 (by omega)]; rfl) ?_
  have K' : Keep dnegRegs s (setR t rax (8 * (g.pT + 4 * 0))) :=
    ⟨fun q hq => by rw [setR_r, Function.update_of_ne (fun h => hq (by rw [h]; exact List.mem_cons_self)), K.r q hq], K.x⟩
  have hax : (setR t rax (8 * (g.pT + 4 * 0))).r rax = 8 * g.pT := by simp [setR]
  refine Ex.append (in_Fp_op_carry_ex g false false (Z := Z) (X := g.pT) (Y := X) (c := 0) (hz.mono (by decide)) (by decide) (hx.mono (by decide))
    ((hpz.keep hz K'.r).less (by omega)) (.pt (by rw [hax]; omega) (by omega)) ((hpx.keep hx K'.r).less (by omega)) (by unfold Seq; omega) (by unfold Seq; omega) (.no _)) ?_
  rintro u ⟨m1, c1, K1⟩
  have K2 := K'.trans (K1.mono (by decide))
  refine (in_Fp_op_carry_ex g false true (Z := Z + 4) (X := g.pT + 4) (Y := X + 4) ((hz.plus 32).mono (by decide)) (by decide) ((hx.plus 32).mono (by decide))
    ((hpz.keep hz K2.r).plus 4 (by omega)) (.pt ?_ (by omega)) ((hpx.keep hx K2.r).plus 4 (by omega)) (by unfold Seq; omega) (by unfold Seq; omega) (.yes c1)).mono ?_
  · rw [K1.r rax (by decide), hax]; omega
  rintro v ⟨m2, -, K3⟩
  refine ⟨?_, K2.trans (K3.mono (by decide))⟩
  have hp0 : rd4 s.m g.pT = pTbl 0 := hT.p 0 (by omega)
  have hp1 : rd4 s.m (g.pT + 4) = pTbl 1 := hT.p 1 (by omega)
  rw [m2, m1, setR_m, hm, rd4_wr4_of (by omega), rd4_wr4_of (by omega), hp0, hp1]
  rfl

def B_DblNeg : Act := bodyA1 1 8 1 8 [(0, 1, true)] (un1 Fp.dblNeg) 4 0
def B_Fp2DblNeg : Act := bodyA1 2 8 2 8 [(0, 1, true)] (at2 fun x => ⟨Fp.dblNeg x.a, Fp.dblNeg x.b⟩) 4 0

theorem dneg_sub : dnegRegs ⊆ gts 4 := by decide

theorem wr8_of {m : ℕ → ℕ} {A i : ℕ} {w : W8} (h : i < A ∨ A + 8 ≤ i) : wr8 m A w i = m i := by
  unfold wr8
  rw [wr4_of _ _ _ (by omega), wr4_of _ _ _ (by omega)]

theorem en_DblNeg {P : ℕ → ℕ} {S : ℕ} (h0 : 0 < P 0) (hp : Pre g (B_DblNeg.frame 4 0) 1 P S s) :
    Fn (code g) ra .DblNeg s (Post g (B_DblNeg.frame 4 0) 0 P S s) := by
  refine frame_at (body := in_FpDbl_neg g 0 (pt gp1) (pt gp2)) (by decide) rfl hp (fun t hq _ _ => ?_) rfl rfl rfl (by decide) (by decide) (by decide)
  have a0 : t.r gp1 + 0 = 8 * P 0 := hq.args 0 _ rfl
  have a1 : t.r gp2 + 0 = 8 * P 1 := hq.args 1 _ rfl
  have b0 : 8 * (P 0 + 8) ≤ B64 := hq.bnd 0 (by decide)
  have b1 : 8 * (P 1 + 8) ≤ B64 := hq.bnd 1 (by decide)
  have hal := hq.al (0, 1, true) List.mem_cons_self
  replace hal : Dis (P 0) 8 (P 1) 8 ∨ true = true ∧ P 0 = P 1 := hal
  have hoT := (hq.outT ⟨0, 0, 8⟩ List.mem_cons_self).1
  replace hoT : Dis (P 0) 8 g.pT 40 := hoT
  refine (dneg_at (by decide) (by decide) (.pt a0 b0) (.pt a1 b1) (by omega) hq.tbl hoT ?_ ?_).mono ?_
  · rcases hal with h | h
    · have := h.sep (by omega) (by omega); omega
    · omega
  · rcases g with ⟨a, b, c⟩
    cases a <;> rfl
  rintro u ⟨m1, K⟩
  have e1 : Fp.dblNeg (vn 8 t.m (P 1)) = (dNeg (rd8 t.m (P 1))).val := by
    unfold Fp.dblNeg
    exact congrArg (fun w => (dNeg w).val) (hq.good.of8 _)
  refine ⟨?_, ?_, fun q hq' => K.r q fun h => hq' (dneg_sub h), fun i _ => by rw [K.x], by intro e he; cases he⟩
  · intro i hi _
    have h1 := hi ⟨0, 0, 8⟩ List.mem_cons_self
    simp only [Nat.add_zero] at h1
    rw [m1, wr8_of (by omega)]
  · intro p hm
    replace hm : p ∈ [(⟨0, 0, 8⟩, Fp.dblNeg (vn 8 t.m (P 1)))] := hm
    rw [e1] at hm
    simp only [List.mem_cons, List.not_mem_nil, or_false] at hm
    subst hm
    show vn 8 u.m (P 0) = _
    rw [vn_rd8, m1, rd8_wr8]

theorem rd8_wr8_of {m : ℕ → ℕ} {A X : ℕ} {w : W8} (h : X + 8 ≤ A ∨ A + 8 ≤ X) : rd8 (wr8 m A w) X = rd8 m X := by
  unfold rd8 wr8
  rw [rd4_wr4_of (by omega), rd4_wr4_of (by omega), rd4_wr4_of (by omega), rd4_wr4_of (by omega)]

theorem en_Fp2DblNeg {P : ℕ → ℕ} {S : ℕ} (h0 : 0 < P 0) (hp : Pre g (B_Fp2DblNeg.frame 4 0) 1 P S s) :
    Fn (code g) ra .Fp2DblNeg s (Post g (B_Fp2DblNeg.frame 4 0) 0 P S s) := by
  refine frame_at (body := in_FpDbl_neg g 0 (pt gp1) (pt gp2) ++ in_FpDbl_neg g 2 (pt gp1 64) (pt gp2 64)) (by decide) rfl hp (fun t hq _ _ => ?_)
    rfl rfl rfl (by decide) (by decide) (by decide)
  have a0 : t.r gp1 + 0 = 8 * P 0 := hq.args 0 _ rfl
  have a1 : t.r gp2 + 0 = 8 * P 1 := hq.args 1 _ rfl
  have b0 : 8 * (P 0 + 16) ≤ B64 := hq.bnd 0 (by decide)
  have b1 : 8 * (P 1 + 16) ≤ B64 := hq.bnd 1 (by decide)
  have hal := hq.al (0, 1, true) List.mem_cons_self
  replace hal : Dis (P 0) 16 (P 1) 16 ∨ true = true ∧ P 0 = P 1 := hal
  have hal' : P 0 + 16 ≤ P 1 ∨ P 1 + 16 ≤ P 0 ∨ P 0 = P 1 := by
    rcases hal with h | h
    · have := h.sep (by omega) (by omega); omega
    · omega
  obtain ⟨o1, o2, o3⟩ := hq.outT ⟨0, 0, 8⟩ List.mem_cons_self
  replace o1 : Dis (P 0) 16 g.pT 40 := o1
  replace o2 : Dis (P 0) 16 g.hT 8 := o2
  replace o3 : Dis (P 0) 16 g.nT 32 := o3
  rw [List.append_assoc]
  refine At.trans (dneg_at (by decide) (by decide) (.pt a0 (by omega)) (.pt a1 (by omega)) (by omega) hq.tbl (o1.sub le_rfl (by omega) le_rfl le_rfl) (by omega) ?_) ?_
  · rcases g with ⟨a, b, c⟩
    cases a <;> rfl
  rintro u ⟨m1, K⟩
  have hT : Tbl g u.m := hq.tbl.congr
    (fun i h1 h2 => by rw [m1]; exact wr8_of (by have := o1.sep (by omega) (by omega); omega))
    (fun i h1 h2 => by rw [m1]; exact wr8_of (by have := o2.sep (by omega) (by omega); omega))
    (fun i h1 h2 => by rw [m1]; exact wr8_of (by have := o3.sep (by omega) (by omega); omega))
  refine (dneg_at (Z := P 0 + 8) (X := P 1 + 8) (by decide) (by decide) (.pt ?_ (by omega)) (.pt ?_ (by omega)) ?_ hT
    (o1.sub (by omega) (by omega) le_rfl le_rfl) (by omega) ?_).mono ?_
  · rw [K.r gp1 (by decide)]; omega
  · rw [K.r gp2 (by decide)]; omega
  · rw [K.r gp1 (by decide)]; omega
  · rcases g with ⟨a, b, c⟩
    cases a <;> rfl
  rintro v ⟨m2, K2⟩
  rw [m1, rd8_wr8_of (by omega)] at m2
  have K3 := K.trans K2
  have e1 : ∀ i, Fp.dblNeg (vn 8 t.m i) = (dNeg (rd8 t.m i)).val := fun i => by
    unfold Fp.dblNeg
    exact congrArg (fun w => (dNeg w).val) (hq.good.of8 _)
  refine ⟨?_, ?_, fun q hq' => K3.r q fun h => hq' (dneg_sub h), fun i _ => by rw [K3.x], by intro e he; cases he⟩
  · intro i hi _
    have h1 := hi ⟨0, 0, 8⟩ List.mem_cons_self
    have h2 := hi ⟨0, 8, 8⟩ (List.mem_cons_of_mem _ List.mem_cons_self)
    simp only [Nat.add_zero] at h1 h2
    rw [m2, wr8_of (by omega), wr8_of (by omega)]
  · intro p hm
    replace hm : p ∈ [(⟨0, 0, 8⟩, Fp.dblNeg (vn 8 t.m (P 1))), (⟨0, 8, 8⟩, Fp.dblNeg (vn 8 t.m (P 1 + 8)))] := hm
    rw [e1, e1] at hm
    simp only [List.mem_cons, List.not_mem_nil, or_false] at hm
    rcases hm with rfl | rfl
    · show vn 8 v.m (P 0) = _
      rw [vn_rd8, m2, rd8_wr8_of (by omega), rd8_wr8]
    · show vn 8 v.m (P 0 + 8) = _
      rw [vn_rd8, m2, rd8_wr8]
end

end Jit
end Verif
