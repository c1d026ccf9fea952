import Verif.Jit.Entries

/-! The entry points without a frame: `FpAddNC`, `FpSubNC`, `Fp2AddNC`, `FpNeg`, `FpShr1`, `FpShr2`. -/

namespace Verif
namespace Jit

open Fp Reg

section
variable {g : Cfg} {ra : Sub → ℕ → ℕ} {a : Act} {P : ℕ → ℕ} {S : ℕ} {s t : St}

/-- one number written -/
theorem post1 {w : W4} (ho : a.outs = [⟨0, 0, 4⟩]) (hpost : a.post = []) (hf : a.f (a.inp P s.m) = [w.val]) (hm : t.m = wr4 s.m (P 0) w)
    (hk : Keep a.clob s t) : Post g a 0 P S s t where
  fr i hi _ := by
    have := hi ⟨0, 0, 4⟩ (by rw [ho]; exact List.mem_cons_self)
    simp only [Nat.add_zero] at this
    rw [hm, wr4_of _ _ _ (by omega)]
  val p hp := by
    rw [ho, hf] at hp
    simp only [List.zip_cons_cons, List.zip_nil_right, List.mem_cons, List.not_mem_nil, or_false] at hp
    subst hp
    show vn 4 t.m (P 0) = w.val
    rw [vn_rd4, hm, rd4_wr4]
  reg := hk.r
  xmm i _ := by rw [hk.x]
  post e he := by rw [hpost] at he; cases he

/-- z := f(x, y), operands in rdi, rsi, rdx -/
def plainA (k : ℕ) (f : List ℕ → List ℕ) (al : List (ℕ × ℕ × Bool)) (clob : List Reg) : Act where
  args := [.ad rdi 0, .ad rsi 0, .ad rdx 0]
  len := [k * 4, k * 4, k * 4]
  al := al
  ins := elts 1 4 k ++ elts 2 4 k
  outs := elts 0 4 k
  f := f
  pre := []
  post := []
  clob := clob
  clobX := []
  depth := 0
/-- z := f(x) -/
def plainA1 (f : List ℕ → List ℕ) (clob : List Reg) : Act where
  args := [.ad rdi 0, .ad rsi 0]
  len := [4, 4]
  al := []
  ins := elts 1 4 1
  outs := elts 0 4 1
  f := f
  pre := []
  post := []
  clob := clob
  clobX := []
  depth := 0

def B_FpAddNC : Act := plainA 1 (on1 Fp.addNC) [] [rax, r9, r10, r11]
def B_FpSubNC : Act := plainA 1 (on1 Fp.subNC) [] [rsi, r9, r10, r11]
def B_Fp2AddNC : Act := plainA 2 (on2 Verif.Fp2.addNC) inPlace [rax, r9, r10, r11]
def B_FpShr (n : ℕ) : Act := plainA1 (un1 fun x => (wShr n (W4.of x)).val) [r8, r9, r10, r11]
def B_FpNeg : Act := plainA1 (un1 Fp.neg) [rax, r8, r9, r10, r11]

theorem addNC1_ex {z x y : Addr} {Z X Y : ℕ} (hz : z.avoid [rax, r9, r10, r11]) (hx : x.avoid [rax, r9, r10, r11]) (hy : y.avoid [rax, r9, r10, r11])
    (hpz : Ptr s.r z Z 4) (hpx : Ptr s.r x X 4) (hpy : Ptr s.r y Y 4) :
    Ex (load_add_rm g rax r9 r10 r11 x y false ++ store_mr z rax r9 r10 r11) s fun t =>
      t.m = wr4 s.m Z (wAddNC (rd4 s.m X) (rd4 s.m Y)) ∧ Keep [rax, r9, r10, r11] s t := by
  refine Ex.append (load_op_rm_ex g true false (by decide) (hx.mono (by decide)) hy hpx hpy (.no _)) ?_
  rintro t ⟨h1, -, K1, m1⟩
  refine (store_mr_ex (hpz.keep hz K1.r)).mono ?_
  rintro u ⟨r2, x2, -, m2⟩
  refine ⟨by rw [m2, h1, m1]; rfl, fun q hq => by rw [r2]; exact K1.r q hq, x2.trans K1.x⟩

theorem en_FpAddNC : SatFn g ra .FpAddNC B_FpAddNC := by
  intro s P S hp
  have a0 : s.r rdi + 0 = 8 * P 0 := hp.args 0 _ rfl
  have a1 : s.r rsi + 0 = 8 * P 1 := hp.args 1 _ rfl
  have a2 : s.r rdx + 0 = 8 * P 2 := hp.args 2 _ rfl
  have b0 : 8 * (P 0 + 4) ≤ B64 := hp.bnd 0 (by decide)
  have b1 : 8 * (P 1 + 4) ≤ B64 := hp.bnd 1 (by decide)
  have b2 : 8 * (P 2 + 4) ≤ B64 := hp.bnd 2 (by decide)
  refine Fn.of (c := ops (load_add_rm g rax r9 r10 r11 (pt rsi) (pt rdx) false ++ store_mr (pt rdi) rax r9 r10 r11)) (by kcode g) (Trip.ops ?_)
  refine (addNC1_ex (by decide) (by decide) (by decide) (.pt a0 b0) (.pt a1 b1) (.pt a2 b2)).mono ?_
  rintro t ⟨h1, h2⟩
  refine post1 rfl rfl ?_ h1 h2
  show [Fp.addNC (vn 4 s.m (P 1)) (vn 4 s.m (P 2))] = _
  rw [Fp.addNC, hp.good.of4, hp.good.of4]

theorem en_FpSubNC : SatFn g ra .FpSubNC B_FpSubNC := by
  intro s P S hp
  have a0 : s.r rdi + 0 = 8 * P 0 := hp.args 0 _ rfl
  have a1 : s.r rsi + 0 = 8 * P 1 := hp.args 1 _ rfl
  have a2 : s.r rdx + 0 = 8 * P 2 := hp.args 2 _ rfl
  have b0 : 8 * (P 0 + 4) ≤ B64 := hp.bnd 0 (by decide)
  have b1 : 8 * (P 1 + 4) ≤ B64 := hp.bnd 1 (by decide)
  have b2 : 8 * (P 2 + 4) ≤ B64 := hp.bnd 2 (by decide)
  refine Fn.of (c := ops (load_sub_rm g rsi r9 r10 r11 (pt rsi) (pt rdx) false ++ store_mr (pt rdi) rsi r9 r10 r11)) rfl (Trip.ops ?_)
  refine Ex.append (load_op_rm_ex g false false (by decide) (by decide) (by decide) (.pt a1 b1) (.pt a2 b2) (.no _)) ?_
  rintro t ⟨h1, -, K1, m1⟩
  refine (store_mr_ex (A := P 0) (.pt ?_ b0)).mono ?_
  · rw [K1.r rdi (by decide), a0]
  rintro u ⟨r2, x2, -, m2⟩
  refine post1 (w := wSubNC (rd4 s.m (P 1)) (rd4 s.m (P 2))) rfl rfl ?_ (by rw [m2, h1, m1]; rfl) ⟨fun q hq => by rw [r2]; exact K1.r q hq, x2.trans K1.x⟩
  show [Fp.subNC (vn 4 s.m (P 1)) (vn 4 s.m (P 2))] = _
  rw [Fp.subNC, hp.good.of4, hp.good.of4]

theorem en_Fp2AddNC : SatFn g ra .Fp2AddNC B_Fp2AddNC := by
  intro s P S hp
  have a0 : s.r rdi + 0 = 8 * P 0 := hp.args 0 _ rfl
  have a1 : s.r rsi + 0 = 8 * P 1 := hp.args 1 _ rfl
  have a2 : s.r rdx + 0 = 8 * P 2 := hp.args 2 _ rfl
  have b0 : 8 * (P 0 + 8) ≤ B64 := hp.bnd 0 (by decide)
  have b1 : 8 * (P 1 + 8) ≤ B64 := hp.bnd 1 (by decide)
  have b2 : 8 * (P 2 + 8) ≤ B64 := hp.bnd 2 (by decide)
  have l1 := hp.al (0, 1, true) List.mem_cons_self
  have l2 := hp.al (0, 2, true) (List.mem_cons_of_mem _ List.mem_cons_self)
  replace l1 : Dis (P 0) 8 (P 1) 8 ∨ true = true ∧ P 0 = P 1 := l1
  replace l2 : Dis (P 0) 8 (P 2) 8 ∨ true = true ∧ P 0 = P 2 := l2
  refine Fn.of (c := ops ((load_add_rm g rax r9 r10 r11 (pt rsi) (pt rdx) false ++ store_mr (pt rdi) rax r9 r10 r11) ++
    (load_add_rm g rax r9 r10 r11 (pt rsi 32) (pt rdx 32) false ++ store_mr (pt rdi 32) rax r9 r10 r11))) (by kcode g) (Trip.ops ?_)
  refine Ex.append (addNC1_ex (by decide) (by decide) (by decide) (.pt a0 (by omega)) (.pt a1 (by omega)) (.pt a2 (by omega))) ?_
  rintro t ⟨m1, K1⟩
  refine (addNC1_ex (Z := P 0 + 4) (X := P 1 + 4) (Y := P 2 + 4) (by decide) (by decide) (by decide) (.pt ?_ (by omega)) (.pt ?_ (by omega)) (.pt ?_ (by omega))).mono ?_
  · rw [K1.r rdi (by decide)]; omega
  · rw [K1.r rsi (by decide)]; omega
  · rw [K1.r rdx (by decide)]; omega
  rintro u ⟨m2, K2⟩
  have hx1 : ∀ i, Dis (P 0) 8 (P i) 8 ∨ true = true ∧ P 0 = P i → rd4 t.m (P i + 4) = rd4 s.m (P i + 4) := by
    intro i hal
    rw [m1]
    rcases hal with h | ⟨-, h⟩
    · exact rd4_wr4_dis (h.sub le_rfl (by omega) (by omega) (by omega))
    · exact rd4_wr4_of (by omega)
  rw [hx1 1 l1, hx1 2 l2] at m2
  refine ⟨?_, ?_, fun q hq => (K2.r q hq).trans (K1.r q hq), fun i _ => by rw [K2.x, K1.x], by intro e he; cases he⟩
  · intro i hi _
    have h1 := hi ⟨0, 0, 4⟩ List.mem_cons_self
    have h2 := hi ⟨0, 4, 4⟩ (List.mem_cons_of_mem _ List.mem_cons_self)
    simp only [Nat.add_zero] at h1 h2
    rw [m2, wr4_of _ _ _ (by omega), m1, wr4_of _ _ _ (by omega)]
  · intro p hm
    replace hm : p ∈ [(⟨0, 0, 4⟩, Fp.addNC (vn 4 s.m (P 1)) (vn 4 s.m (P 2))), (⟨0, 4, 4⟩, Fp.addNC (vn 4 s.m (P 1 + 4)) (vn 4 s.m (P 2 + 4)))] := hm
    simp only [List.mem_cons, List.not_mem_nil, or_false] at hm
    rcases hm with rfl | rfl
    · show vn 4 u.m (P 0) = Fp.addNC _ _
      rw [vn_rd4, m2, rd4_wr4_of (by omega), m1, rd4_wr4, Fp.addNC, hp.good.of4, hp.good.of4]
    · show vn 4 u.m (P 0 + 4) = Fp.addNC _ _
      rw [vn_rd4, m2, rd4_wr4, Fp.addNC, hp.good.of4, hp.good.of4]

theorem shr_fn {j : Sub} (n : ℕ) (hj : code g j = make_Fp_shr n) : SatFn g ra j (B_FpShr n) := by
  intro s P S hp
  have a0 : s.r rdi + 0 = 8 * P 0 := hp.args 0 _ rfl
  have a1 : s.r rsi + 0 = 8 * P 1 := hp.args 1 _ rfl
  have b0 : 8 * (P 0 + 4) ≤ B64 := hp.bnd 0 (by show 0 < 2; omega)
  have b1 : 8 * (P 1 + 4) ≤ B64 := hp.bnd 1 (by show 1 < 2; omega)
  refine Fn.of (c := ops (load_rm r8 r9 r10 r11 (pt rsi) ++ (shrn r8 r9 r10 r11 n ++ store_mr (pt rdi) r8 r9 r10 r11)))
    (by rw [hj, make_Fp_shr, List.append_assoc]) (Trip.ops ?_)
  refine Ex.append (load_rm_ex (by decide) (by decide) (.pt a1 b1)) ?_
  rintro t ⟨h1, K1, m1, -⟩
  refine Ex.append (shrn_ex n t (by decide)) ?_
  rintro u ⟨h2, K2, m2⟩
  refine (store_mr_ex (A := P 0) (.pt ?_ b0)).mono ?_
  · rw [K2.r rdi (by decide), K1.r rdi (by decide), a0]
  rintro v ⟨r3, x3, -, m3⟩
  refine post1 (w := wShr n (rd4 s.m (P 1))) rfl rfl ?_ (by rw [m3, h2, h1, m2, m1])
    ⟨fun q hq => by rw [r3]; exact (K2.r q hq).trans (K1.r q hq), x3.trans (K2.x.trans K1.x)⟩
  show [(wShr n (W4.of (vn 4 s.m (P 1)))).val] = _
  rw [hp.good.of4]

theorem en_FpShr1 : SatFn g ra .FpShr1 (B_FpShr 1) := shr_fn 1 rfl
theorem en_FpShr2 : SatFn g ra .FpShr2 (B_FpShr 2) := shr_fn 2 rfl

theorem or4_ex' {s : St} :
    Ex [mv rax r11, orr .or rax r10, orr .or rax r9, orr .or rax r8] s fun t =>
      t.zf = some ((s.r r11 ||| s.r r10 ||| s.r r9 ||| s.r r8) == 0) ∧ Keep [rax] s t ∧ t.m = s.m := by
  refine ⟨_, rfl, ?_, ⟨?_, rfl⟩, rfl⟩
  · simp [setR, Function.update]
  · intro q hq
    simp [setR, Function.update]
    intro hc
    exact absurd (List.mem_singleton.2 hc) hq

theorem en_FpNeg : SatFn g ra .FpNeg B_FpNeg := by
  intro s P S hp
  have a0 : s.r rdi + 0 = 8 * P 0 := hp.args 0 _ rfl
  have a1 : s.r rsi + 0 = 8 * P 1 := hp.args 1 _ rfl
  have b0 : 8 * (P 0 + 4) ≤ B64 := hp.bnd 0 (by decide)
  have b1 : 8 * (P 1 + 4) ≤ B64 := hp.bnd 1 (by decide)
  have hpb := hp.tbl.pb
  refine Fn.at (l := []) ?_
  have e : code g .FpNeg = ops (load_rm r8 r9 r10 r11 (pt rsi) ++ [mv rax r11, orr .or rax r10, orr .or rax r9, orr .or rax r8]) ++
      (.jcc .z 0 :: (ops (mvi rax (pTblAt g 1) :: load_sub_rm g r8 r9 r10 r11 (pt rax) (pt rsi) false) ++
      (.lab 0 :: (ops (store_mr (pt rdi) r8 r9 r10 r11) ++ [.ret])))) := rfl
  have ht : target 0 (code g .FpNeg) = .ok (ops (store_mr (pt rdi) r8 r9 r10 r11) ++ [.ret]) := by
    rw [e, target_ops, target_jcc, target_ops, target_lab]
  rw [e]
  refine At.trans (At.ops (Q := fun t => t.zf = some (((rd4 s.m (P 1)).w0 ||| (rd4 s.m (P 1)).w1 ||| (rd4 s.m (P 1)).w2 ||| (rd4 s.m (P 1)).w3) == 0) ∧
    R4 t.r r8 r9 r10 r11 = rd4 s.m (P 1) ∧ Keep [rax, r8, r9, r10, r11] s t ∧ t.m = s.m) ?_) ?_
  · refine Ex.append (load_rm_ex (by decide) (by decide) (.pt a1 b1)) ?_
    rintro t ⟨h1, K1, m1, -⟩
    refine or4_ex'.mono ?_
    rintro u ⟨h2, K2, m2⟩
    refine ⟨?_, ?_, (K1.mono (by decide)).trans (K2.mono (by decide)), m2.trans m1⟩
    · rw [h2, ← h1]; rfl
    · rw [← h1]; unfold R4; rw [K2.r r8 (by decide), K2.r r9 (by decide), K2.r r10 (by decide), K2.r r11 (by decide)]
  rintro t ⟨hzf, hR, K, hm⟩
  have fin : ∀ u, R4 u.r r8 r9 r10 r11 = wNeg (rd4 s.m (P 1)) → Keep [rax, r8, r9, r10, r11] s u → u.m = s.m →
      At (code g) ra .FpNeg (ops (store_mr (pt rdi) r8 r9 r10 r11) ++ [.ret]) [.ret] u (Post g B_FpNeg 0 P S s) := by
    intro u h1 h2 h3
    refine At.ops ((store_mr_ex (A := P 0) (.pt (by rw [h2.r rdi (by decide), a0]) b0)).mono ?_)
    rintro v ⟨r3, x3, -, m3⟩
    refine post1 (w := wNeg (rd4 s.m (P 1))) rfl rfl ?_ (by rw [m3, h1, h3]) ⟨fun q hq => by rw [r3]; exact h2.r q hq, x3.trans h2.x⟩
    show [Fp.neg (vn 4 s.m (P 1))] = _
    rw [Fp.neg, hp.good.of4]
  by_cases h0 : ((rd4 s.m (P 1)).w0 ||| (rd4 s.m (P 1)).w1 ||| (rd4 s.m (P 1)).w2 ||| (rd4 s.m (P 1)).w3) = 0
  · refine At.jcc (by simp [holds, hzf, flag, h0]) ht (fin t ?_ K hm)
    rw [hR]; unfold wNeg; rw [if_pos h0]
  · refine At.pass (by simp [holds, hzf, flag, h0]) ?_
    refine At.trans (At.ops (Q := fun u => R4 u.r r8 r9 r10 r11 = wNeg (rd4 s.m (P 1)) ∧ Keep [rax, r8, r9, r10, r11] s u ∧ u.m = s.m) ?_) ?_
    · refine .cons (t := setR t rax (8 * (g.pT + 4 * 1))) (by rw [← hpt g 1 (by omega)]; rfl) ?_
      refine (load_op_rm_ex g false false (X := g.pT + 4) (Y := P 1) (by decide) (by decide) (by decide) (.pt ?_ (by omega)) (.pt ?_ b1) (.no _)).mono ?_
      · simp [setR]
      · rw [setR_r, Function.update_of_ne (by decide), K.r rsi (by decide), a1]
      rintro u ⟨h1, -, K1, m1⟩
      refine ⟨?_, ⟨fun q hq => ?_, K1.x.trans K.x⟩, m1.trans hm⟩
      · rw [h1, setR_m, hm, show rd4 s.m (g.pT + 4) = pTbl 1 from hp.tbl.p 1 (by omega)]; unfold wNeg; rw [if_neg h0]; rfl
      · rw [K1.r q (fun h => hq (List.mem_cons_of_mem _ h)), setR_r, Function.update_of_ne (fun h => hq (by rw [h]; exact List.mem_cons_self)), K.r q hq]
    rintro u ⟨h1, h2, h3⟩
    exact At.lab (fin u h1 h2 h3)

end

end Jit
end Verif
