import Verif.Snark.Jit

/-! The machine code of the SNARK build for `Fp2Dbl::mul_xi` (src/zm2.cpp:2063-2085 with `BN_SUPPORT_SNARK`, entry point
`make_Fp2Dbl_mul_xi`). -/

namespace Verif
namespace Jit
namespace Snk

open Reg
open Fp (W4 W8 add4 sub4)

/-- four `in_FpDbl_add`, zm2.cpp:2069-2072: 2, 4, 8, 9 times [mx] -/
def dbl9 (g : Cfg) (mz mx : Addr) : List Op :=
  in_FpDbl_add1 g mz mx mx ++ (in_FpDbl_add1 g mz mz mz ++ (in_FpDbl_add1 g mz mz mz ++ in_FpDbl_add1 g mz mz mx))

/-- `set_p_Fp2Dbl_mul_xi` without its `ret`, zm2.cpp:2067-2080 -/
def p_Fp2Dbl_mul_xi (g : Cfg) : List Op :=
  mvi rax (pTblAt g 1) :: (dbl9 g (pt gp1) (pt gp2) ++ (sub_FpDbl_sub g (pt gp1) (pt gp1) (pt gp2 64) ++
    (dbl9 g (pt gp1 64) (pt gp2 64) ++ in_FpDbl_add1 g (pt gp1 64) (pt gp1 64) (pt gp2))))

/-- the internal routine and `make_Fp2Dbl_mul_xi`, zm2.cpp:1634-1638 -/
def dblCode (g : Cfg) : Sub → Code
  | .pFp2DblMulXi => ops (p_Fp2Dbl_mul_xi g) ++ [.ret]
  | _ => frame 7 0 [.call .pFp2DblMulXi]

abbrev dRegs : List Reg := rax :: addRegs

theorem rd8_wr8_self (m : ℕ → ℕ) (A : ℕ) (w : W8) : rd8 (wr8 m A w) A = w := by
  unfold rd8 wr8
  rw [rd4_wr4_self, rd4_wr4_of (by omega), rd4_wr4_self]

theorem wr8_of (m : ℕ → ℕ) (A : ℕ) (w : W8) {i : ℕ} (h : i < A ∨ A + 8 ≤ i) : wr8 m A w i = m i := by
  unfold wr8
  rw [wr4_of _ _ _ (by omega), wr4_of _ _ _ (by omega)]

theorem rd8_congr {m m' : ℕ → ℕ} {A : ℕ} (h : ∀ i, A ≤ i → i < A + 8 → m' i = m i) : rd8 m' A = rd8 m A := by
  unfold rd8
  rw [rd4_congr fun i a b => h i a (by omega), rd4_congr fun i a b => h i (by omega) (by omega)]

theorem rd8_wr8_of {m : ℕ → ℕ} {A X : ℕ} {w : W8} (h : X + 8 ≤ A ∨ A + 8 ≤ X) : rd8 (wr8 m A w) X = rd8 m X :=
  rd8_congr fun i a b => wr8_of m A w (by omega)

theorem wr4_in {m m' : ℕ → ℕ} {A i : ℕ} {w : W4} (h1 : A ≤ i) (h2 : i < A + 4) : wr4 m' A w i = wr4 m A w i := by
  unfold wr4; simp only [Function.update_apply]; split_ifs <;> first | rfl | (exfalso; omega)

theorem wr8_in {m m' : ℕ → ℕ} {A i : ℕ} {w : W8} (h1 : A ≤ i) (h2 : i < A + 8) : wr8 m' A w i = wr8 m A w i := by
  unfold wr8
  by_cases c : i < A + 4
  · rw [wr4_of _ (A + 4) _ (by omega), wr4_of _ (A + 4) _ (by omega), wr4_in h1 (by omega)]
  · exact wr4_in (by omega) (by omega)

theorem wr8_wr8 (m : ℕ → ℕ) (A : ℕ) (w w' : W8) : wr8 (wr8 m A w) A w' = wr8 m A w' := by
  funext i
  by_cases c : i < A ∨ A + 8 ≤ i
  · rw [wr8_of _ _ _ c, wr8_of _ _ _ c, wr8_of _ _ _ c]
  · exact wr8_in (by omega) (by omega)

theorem dAddP_eq (x y : W8) : dAddP (Snark.pTbl 1) x y = Snark.dAdd x y := rfl
theorem dSubP_eq (x y : W8) : dSubP (Snark.pTbl 1) x y = Snark.dSub x y := rfl

/-- the value of `dbl9` -/
def w9 (x : W8) : W8 := Snark.dAdd (Snark.dAdd (Snark.dAdd (Snark.dAdd x x) (Snark.dAdd x x)) (Snark.dAdd (Snark.dAdd x x) (Snark.dAdd x x))) x

theorem dAdd_ex (g : Cfg) {mz mx my : Addr} {Z X Y : ℕ} {s : St} (hz : mz.avoid dRegs) (hx : mx.avoid dRegs) (hy : my.avoid dRegs)
    (hpz : Ptr s.r mz Z 8) (hpx : Ptr s.r mx X 8) (hpy : Ptr s.r my Y 8) (hzx : Seq Z X 8) (hzy : Seq Z Y 8)
    (hPb : 8 * (g.pT + 8) ≤ B64) (hP : rd4 s.m (g.pT + 4) = Snark.pTbl 1) (hzp : g.pT + 8 ≤ Z ∨ Z + 8 ≤ g.pT + 4) :
    Ex (in_FpDbl_add1 g mz mx my) s fun t => t.m = wr8 s.m Z (Snark.dAdd (rd8 s.m X) (rd8 s.m Y)) ∧ Keep dRegs s t := by
  refine (in_FpDbl_add1_exP g (Snark.pTbl 1) hz hx hy hpz hpx hpy hzx hzy hPb hP hzp).mono ?_
  rintro t ⟨h1, -, K⟩
  rw [dAddP_eq] at h1
  exact ⟨h1, K⟩

theorem dSub_ex (g : Cfg) {mz mx my : Addr} {Z X Y : ℕ} {s : St} (hz : mz.avoid dRegs) (hx : mx.avoid dRegs) (hy : my.avoid dRegs)
    (hpz : Ptr s.r mz Z 8) (hpx : Ptr s.r mx X 8) (hpy : Ptr s.r my Y 8) (hzx : Seq Z X 8) (hzy : Seq Z Y 8)
    (hPb : 8 * (g.pT + 8) ≤ B64) (hP : rd4 s.m (g.pT + 4) = Snark.pTbl 1) (hzp : g.pT + 8 ≤ Z ∨ Z + 8 ≤ g.pT + 4) :
    Ex (sub_FpDbl_sub g mz mx my) s fun t => t.m = wr8 s.m Z (Snark.dSub (rd8 s.m X) (rd8 s.m Y)) ∧ Keep dRegs s t := by
  refine (sub_FpDbl_sub_exP g (Snark.pTbl 1) (Fp.W4.of_ok _) hz hx hy hpz hpx hpy hzx hzy hPb hP hzp).mono ?_
  rintro t ⟨h1, -, K⟩
  rw [dSubP_eq] at h1
  exact ⟨h1, K⟩

theorem rd4_wr8_of {m : ℕ → ℕ} {A X : ℕ} {w : W8} (h : X + 4 ≤ A ∨ A + 8 ≤ X) : rd4 (wr8 m A w) X = rd4 m X :=
  rd4_congr fun i a b => wr8_of m A w (by omega)

theorem dbl9_ex (g : Cfg) {mz mx : Addr} {Z X : ℕ} {s : St} (hz : mz.avoid dRegs) (hx : mx.avoid dRegs)
    (hpz : Ptr s.r mz Z 8) (hpx : Ptr s.r mx X 8) (hzx : Apart Z 8 X 8)
    (hPb : 8 * (g.pT + 8) ≤ B64) (hP : rd4 s.m (g.pT + 4) = Snark.pTbl 1) (hzp : g.pT + 8 ≤ Z ∨ Z + 8 ≤ g.pT + 4) :
    Ex (dbl9 g mz mx) s fun t => t.m = wr8 s.m Z (w9 (rd8 s.m X)) ∧ Keep dRegs s t := by
  unfold Apart at hzx
  have zx : Seq Z X 8 := by unfold Seq; omega
  have zz : Seq Z Z 8 := .inl le_rfl
  unfold dbl9
  refine Ex.append (dAdd_ex g hz hx hx hpz hpx hpx zx zx hPb hP hzp) ?_
  rintro t ⟨m1, K1⟩
  have Z1 := hpz.keep hz K1.r
  refine Ex.append (dAdd_ex g hz hz hz Z1 Z1 Z1 zz zz hPb (by rw [m1, rd4_wr8_of (by omega), hP]) hzp) ?_
  rintro u ⟨m2, K2⟩
  rw [m1, rd8_wr8_self, wr8_wr8] at m2
  have Z2 := Z1.keep hz K2.r
  refine Ex.append (dAdd_ex g hz hz hz Z2 Z2 Z2 zz zz hPb (by rw [m2, rd4_wr8_of (by omega), hP]) hzp) ?_
  rintro v ⟨m3, K3⟩
  rw [m2, rd8_wr8_self, wr8_wr8] at m3
  have Z3 := Z2.keep hz K3.r
  have K := (K1.trans K2).trans K3
  refine (dAdd_ex g hz hz hx Z3 Z3 (hpx.keep hx K.r) zz zx hPb (by rw [m3, rd4_wr8_of (by omega), hP]) hzp).mono ?_
  rintro w ⟨m4, K4⟩
  rw [m3, rd8_wr8_self, wr8_wr8, rd8_wr8_of (by omega)] at m4
  exact ⟨m4, K.trans K4⟩

theorem p_Fp2Dbl_mul_xi_ex (g : Cfg) {Z X : ℕ} {s : St} (hz : s.r gp1 = 8 * Z) (hx : s.r gp2 = 8 * X) (bz : 8 * (Z + 16) ≤ B64) (bx : 8 * (X + 16) ≤ B64)
    (hzx : Apart Z 16 X 16) (hPb : 8 * (g.pT + 8) ≤ B64) (hP : rd4 s.m (g.pT + 4) = Snark.pTbl 1) (hzp : Apart Z 16 g.pT 8) :
    Ex (p_Fp2Dbl_mul_xi g) s fun t =>
      t.m = wr8 (wr8 s.m Z (Snark.dSub (w9 (rd8 s.m X)) (rd8 s.m (X + 8)))) (Z + 8) (Snark.dAdd (w9 (rd8 s.m (X + 8))) (rd8 s.m X)) ∧ Keep dRegs s t := by
  unfold Apart at hzx hzp
  unfold p_Fp2Dbl_mul_xi
  have az : ∀ d, (pt gp1 d).avoid dRegs := fun d => by simp [Addr.avoid, pt]
  have ax : ∀ d, (pt gp2 d).avoid dRegs := fun d => by simp [Addr.avoid, pt]
  refine .cons (mvi_ok _ _ _) ?_
  have K0 : Keep dRegs s (setR s rax (pTblAt g 1 % B64)) := ⟨by keeps, rfl⟩
  have pz : ∀ {t : St}, Keep dRegs s t → Ptr t.r (pt gp1) Z 8 := fun K => .pt (by rw [K.r gp1 (by decide), hz, Nat.add_zero]) (by omega)
  have pz8 : ∀ {t : St}, Keep dRegs s t → Ptr t.r (pt gp1 64) (Z + 8) 8 := fun K => .pt (by rw [K.r gp1 (by decide), hz]; omega) (by omega)
  have px : ∀ {t : St}, Keep dRegs s t → Ptr t.r (pt gp2) X 8 := fun K => .pt (by rw [K.r gp2 (by decide), hx, Nat.add_zero]) (by omega)
  have px8 : ∀ {t : St}, Keep dRegs s t → Ptr t.r (pt gp2 64) (X + 8) 8 := fun K => .pt (by rw [K.r gp2 (by decide), hx]; omega) (by omega)
  refine Ex.append (dbl9_ex g (az _) (ax _) (pz K0) (px K0) (by unfold Apart; omega) hPb hP (by omega)) ?_
  rintro t ⟨m1, K1⟩
  replace K1 := K0.trans K1
  rw [setR_m] at m1
  refine Ex.append (dSub_ex g (az _) (az _) (ax _) (pz K1) (pz K1) (px8 K1) (.inl le_rfl) (by unfold Seq; omega) hPb
    (by rw [m1, rd4_wr8_of (by omega), hP]) (by omega)) ?_
  rintro u ⟨m2, K2⟩
  replace K2 := K1.trans K2
  rw [m1, rd8_wr8_self, wr8_wr8, rd8_wr8_of (by omega)] at m2
  refine Ex.append (dbl9_ex g (az _) (ax _) (pz8 K2) (px8 K2) (by unfold Apart; omega) hPb
    (by rw [m2, rd4_wr8_of (by omega), hP]) (by omega)) ?_
  rintro v ⟨m3, K3⟩
  replace K3 := K2.trans K3
  rw [m2, rd8_wr8_of (by omega)] at m3
  refine (dAdd_ex g (az _) (az _) (ax _) (pz8 K3) (pz8 K3) (px K3) (.inl le_rfl) (by unfold Seq; omega) hPb
    (by rw [m3, rd4_wr8_of (by omega), rd4_wr8_of (by omega), hP]) (by omega)).mono ?_
  rintro w ⟨m4, K4⟩
  rw [m3, rd8_wr8_self, wr8_wr8, rd8_wr8_of (by omega), rd8_wr8_of (by omega)] at m4
  exact ⟨m4, K3.trans K4⟩

/-- A call of the SNARK build's `Fp2Dbl::mul_xi(z, x)`. -/
structure CallDXi (g : Cfg) (s : St) (S z x : ℕ) : Prop where
  words : Words s
  tbl : num s.m (g.pT + 4) 4 = Snark.p
  tb : 8 * (g.pT + 8) ≤ 2 ^ 64
  sp : s.r rsp = 8 * S
  room : 4 ≤ S
  top : 8 * (S + 1) < 2 ^ 64
  az : s.r rdi = 8 * z
  ax : s.r rsi = 8 * x
  bz : 8 * (z + 16) ≤ 2 ^ 64
  bx : 8 * (x + 16) ≤ 2 ^ 64
  st : Apart (S - 4) 5 g.pT 8
  sz : Apart (S - 4) 5 z 16
  sx : Apart (S - 4) 5 x 16
  zt : Apart z 16 g.pT 8

/-- `Returns` for the two routines in the code area -/
def DoesDXi (g : Cfg) (s : St) (S z : ℕ) (Q : St → Prop) : Prop :=
  ∀ ra : Sub → ℕ → ℕ, ∃ t, Returns (dblCode g) ra .Fp2DblMulXi s t ∧ (∀ q ∈ calleeSaved, t.r q = s.r q) ∧
    (∀ i, (i < z ∨ z + 16 ≤ i) → (i < S - 4 ∨ S ≤ i) → t.m i = s.m i) ∧ Q t

theorem does_dxi {g : Cfg} {s : St} {S z x : ℕ} (h : CallDXi g s S z x) (hzx : Apart z 16 x 16) :
    DoesDXi g s S z fun t => rd8 t.m z = Snark.dSub (w9 (rd8 s.m x)) (rd8 s.m (x + 8)) ∧
      rd8 t.m (z + 8) = Snark.dAdd (w9 (rd8 s.m (x + 8))) (rd8 s.m x) := by
  intro ra
  obtain ⟨hw, htbl, htb, hsp, hroom, htop, haz, hax, hbz, hbx, hst, hsz, hsx, hzt⟩ := h
  have hP : rd4 s.m (g.pT + 4) = Snark.pTbl 1 := by
    rw [rd4_of hw.m, htbl]; unfold Snark.pTbl; rw [Nat.one_mul]
  have hzt' := hzt
  unfold Apart at hst hsz hsx hzt
  have key : Fn (dblCode g) ra .Fp2DblMulXi s fun t => (∀ q ∈ calleeSaved, t.r q = s.r q) ∧
      (∀ i, (i < z ∨ z + 16 ≤ i) → (i < S - 4 ∨ S ≤ i) → t.m i = s.m i) ∧ rd8 t.m z = Snark.dSub (w9 (rd8 s.m x)) (rd8 s.m (x + 8)) ∧
      rd8 t.m (z + 8) = Snark.dAdd (w9 (rd8 s.m (x + 8))) (rd8 s.m x) := by
    refine Fn.of (c := ops (storeReg 7 0) ++ ([.call .pFp2DblMulXi] ++ ops (restoreReg 7 0))) ?_ ?_
    · simp [dblCode, frame]
    refine Trip.append (Trip.ops (store_ex (S := S) (by omega) hsp (by omega) (by omega))) ?_
    rintro t ⟨t1, -, t3, -, t5, t6⟩
    have tm : ∀ i, ¬(S - 3 ≤ i ∧ i < S) → t.m i = s.m i := fun i hi => t6 i (by omega)
    generalize hA : Snark.dSub (w9 (rd8 s.m x)) (rd8 s.m (x + 8)) = A
    generalize hB : Snark.dAdd (w9 (rd8 s.m (x + 8))) (rd8 s.m x) = B
    refine Trip.append (Trip.call (S := S - 3) (P := fun u => (∀ q, q ≠ rsp → q ∉ dRegs → u.r q = t.r q) ∧ rd8 u.m z = A ∧ rd8 u.m (z + 8) = B ∧
        ∀ i, (i < z ∨ z + 16 ≤ i) → i ≠ S - 4 → u.m i = t.m i)
      (Q := fun u => u.r rsp = 8 * (S - 3) ∧ (∀ q, q ≠ rsp → q ∉ dRegs → u.r q = t.r q) ∧ rd8 u.m z = A ∧ rd8 u.m (z + 8) = B ∧
        ∀ i, (i < z ∨ z + 16 ≤ i) → i ≠ S - 4 → u.m i = t.m i) (by rw [t1]) (by omega) (by omega) (fun v hv => ?_) ?_) ?_
    · have pr : ∀ q, q ≠ rsp → (pushed t (S - 3) v).r q = t.r q := fun q hq => Function.update_of_ne hq _ _
      have pm : ∀ i, i ≠ S - 4 → (pushed t (S - 3) v).m i = t.m i := fun i hi => Function.update_of_ne (by omega) _ _
      have ps : (pushed t (S - 3) v).m (S - 4) = v := by
        have e : S - 4 = S - 3 - 1 := by omega
        rw [e]; exact Function.update_self _ _ _
      have pp : (pushed t (S - 3) v).r rsp = 8 * (S - 3 - 1) := by simp [pushed, setR]
      generalize pushed t (S - 3) v = w at pr pm ps pp
      have wm : ∀ i, (i < S - 4 ∨ S ≤ i) → w.m i = s.m i := fun i hi => by rw [pm i (by omega), tm i (by omega)]
      have x0 : rd8 w.m x = rd8 s.m x := rd8_congr fun i a b => wm i (by omega)
      have x8 : rd8 w.m (x + 8) = rd8 s.m (x + 8) := rd8_congr fun i a b => wm i (by omega)
      refine Fn.of (c := ops (p_Fp2Dbl_mul_xi g)) rfl ((Trip.ops (p_Fp2Dbl_mul_xi_ex g (Z := z) (X := x) ?_ ?_ hbz hbx hzx htb ?_ hzt')).mono ?_)
      · rw [pr _ (by decide), t3 _ (by decide) (by decide), haz]
      · rw [pr _ (by decide), t3 _ (by decide) (by decide), hax]
      · rw [← hP]; exact rd4_congr fun i a b => wm i (by omega)
      · rintro u ⟨u1, K⟩
        rw [x0, x8, hA, hB] at u1
        refine ⟨by rw [K.r rsp (by decide), pp], ?_, fun q a b => by rw [K.r q b, pr q a], ?_, ?_, fun i a b => ?_⟩
        · rw [u1, wr8_of _ _ _ (by omega), wr8_of _ _ _ (by omega)]
          have e : S - 3 - 1 = S - 4 := by omega
          rw [e, ps]
        · rw [u1, rd8_wr8_of (by omega), rd8_wr8_self]
        · rw [u1, rd8_wr8_self]
        · rw [u1, wr8_of _ _ _ (by omega), wr8_of _ _ _ (by omega), pm i b]
    · rintro u ⟨a, b, c, d⟩
      exact ⟨by simp [setR], fun q h h' => by rw [← a q h h']; exact Function.update_of_ne h _ _, b, c, d⟩
    rintro u ⟨u0, ur, ua, ub, um⟩
    refine (Trip.ops (rest_ex (B := S - 3) (by omega) (by rw [u0]) (by omega))).mono ?_
    rintro v ⟨v1, v2, v3, -, v5⟩
    have hsave : ∀ q ∈ frameL 7 0, v.r q.2 = s.r q.2 := by
      intro q hq
      have := frameL_mem (by omega) hq
      rw [v2 q hq, um _ (by omega) (by omega), t5 q hq]
    refine ⟨?_, ?_, by rw [v5]; exact ua, by rw [v5]; exact ub⟩
    · have e1 : v.r rsp = s.r rsp := by rw [v1, hsp]; omega
      have e2 : ∀ q, q ≠ rsp → q ∉ (gtSaved 7).map Prod.snd → q ≠ r9 → q ∉ dRegs → v.r q = s.r q := by
        intro q a b c d
        rw [v3 q a b, ur q a d, t3 q a c]
      have s5 := hsave (3 - 1, gt5) (by decide)
      have s6 := hsave (3 - 2, gt6) (by decide)
      have s7 := hsave (3 - 3, gt7) (by decide)
      intro q hq
      simp only [calleeSaved, List.mem_cons, List.not_mem_nil, or_false] at hq
      rcases hq with rfl | rfl | rfl | rfl | rfl | rfl | rfl
      · exact e2 _ (by decide) (by decide) (by decide) (by decide)
      · exact e2 _ (by decide) (by decide) (by decide) (by decide)
      · exact e1
      · exact s5
      · exact s6
      · exact s7
      · exact e2 _ (by decide) (by decide) (by decide) (by decide)
    · intro i a b
      rw [v5, um i a (by omega), tm i (by omega)]
  obtain ⟨t, l, e, q⟩ := key
  exact ⟨t, ⟨l, e []⟩, q.1, q.2.1, q.2.2⟩

end Snk
end Jit
end Verif
