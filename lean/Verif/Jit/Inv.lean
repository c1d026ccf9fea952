import Verif.Jit.DblNeg
import Verif.Fp.WordInv

/-! `FpPreInv`: the almost-inverse loop. -/

namespace Verif
namespace Jit

open Fp Reg

section
variable {g : Cfg} {ra : Sub → ℕ → ℕ} {s s0 : St} {st : InvSt} {B Z : ℕ}

theorem alum_ok {o : Alu} {a : Addr} {q : Reg} {A n : ℕ} {v : ℕ × ℕ} (hp : Ptr s.r a A n) (hn : 0 < n)
    (h : alu s.cf (s.m A) (s.r q) o = .ok v) :
    doOp s (.alum o a (.r q)) = .ok { s with m := Function.update s.m A v.1, cf := some v.2, zf := some (v.1 == 0) } := by
  simp [doOp, src, load_of s.m hp hn, store_of s.m _ hp hn, h]

theorem R4_keep {L : List Reg} {t : St} {z3 z2 z1 z0 : Reg} (K : Keep L s t) (h : z3 ∉ L ∧ z2 ∉ L ∧ z1 ∉ L ∧ z0 ∉ L) : R4 t.r z3 z2 z1 z0 = R4 s.r z3 z2 z1 z0 := by
  simp [R4, K.r _ h.1, K.r _ h.2.1, K.r _ h.2.2.1, K.r _ h.2.2.2]

/-- where the words of the loop are -/
structure Lp (st : InvSt) (B Z : ℕ) (s0 s : St) : Prop where
  v : R4 s.r gt2 gt1 gp3 gp2 = st.v
  u : R4 s.r gt6 gt5 gt4 gt3 = st.u
  sv : R4 s.r gt10 gt9 gt8 gt7 = st.s
  r0 : s.m B = st.r.w0
  r1 : s.m (B + 1) = st.r.w1
  r2 : s.r rax = st.r.w2
  r3 : s.r gp1 = st.r.w3
  k : s.x 4 = st.k
  one : s.x 5 = 1
  z : s.m (B + 2) = 8 * Z
  sp : s.r rsp = 8 * B
  fr : ∀ i, i < B ∨ B + 4 ≤ i → s.m i = s0.m i
  x : ∀ i, i ∉ allX → s.x i = s0.x i

theorem Lp.rv (h : Lp st B Z s0 s) : st.r = ⟨s.m B, s.m (B + 1), s.r rax, s.r gp1⟩ := by
  rw [h.r0, h.r1, h.r2, h.r3]

theorem addd_one {k : ℕ} (h : k < 2 ^ 32 - 1) : addd k 1 = k + 1 := by unfold addd; omega

theorem ueven_ex (h : Lp st B Z s0 s) (hk : st.k < 2 ^ 32 - 1) :
    Ex preInv_ueven s (Lp { st with u := wShr 1 st.u, s := (add4 st.s st.s 0).1, k := st.k + 1 } B Z s0) := by
  unfold preInv_ueven
  rw [List.append_assoc]
  refine Ex.append (shrn_ex 1 s (by decide)) ?_
  rintro t ⟨e1, K1, m1⟩
  refine Ex.append (chain_rr_ex true (by decide) t) ?_
  rintro w ⟨e2, -, K2, m2⟩
  refine .cons rfl (.nil ?_)
  have K := (K1.mono (M := [gt6, gt5, gt4, gt3, gt10, gt9, gt8, gt7]) (by decide)).trans (K2.mono (by decide))
  have hm : w.m = s.m := m2.trans m1
  exact
    { v := (R4_keep K (by decide)).trans h.v
      u := (R4_keep K2 (by decide)).trans (by rw [e1, h.u])
      sv := by
        show R4 w.r gt10 gt9 gt8 gt7 = _
        rw [e2, R4_keep K1 (by decide), h.sv]; rfl
      r0 := by show w.m B = _; rw [hm, h.r0]
      r1 := by show w.m (B + 1) = _; rw [hm, h.r1]
      r2 := (K.r rax (by decide)).trans h.r2
      r3 := (K.r gp1 (by decide)).trans h.r3
      k := by show Function.update w.x 4 _ 4 = _; rw [Function.update_self, K.x, h.k, h.one]; exact addd_one hk
      one := by show Function.update w.x 4 (addd (w.x 4) (w.x 5)) 5 = _; rw [Function.update_of_ne (by decide), K.x, h.one]
      z := by show w.m (B + 2) = _; rw [hm, h.z]
      sp := (K.r rsp (by decide)).trans h.sp
      fr := fun i hi => by show w.m i = _; rw [hm, h.fr i hi]
      x := fun i hi => by
        show Function.update w.x 4 _ i = _
        rw [Function.update_of_ne (fun e => hi (by rw [e]; decide)), K.x, h.x i hi] }

theorem veven_ex (h : Lp st B Z s0 s) (hk : st.k < 2 ^ 32 - 1) (hB : 8 * (B + 4) ≤ B64) :
    Ex preInv_veven s (Lp { st with v := wShr 1 st.v, r := (add4 st.r st.r 0).1, k := st.k + 1 } B Z s0) := by
  unfold preInv_veven
  refine Ex.append (shrn_ex 1 s (by decide)) ?_
  rintro t ⟨e1, K1, m1⟩
  have hsp : t.r rsp = 8 * B := (K1.r rsp (by decide)).trans h.sp
  refine .cons (ld_ok (A := B) (n := 1) (.pt (by omega) (by omega)) (by omega)) ?_
  refine .cons (alum_ok (A := B) (n := 1) (.pt (show t.r rsp + 0 = _ by omega) (by omega)) (by omega) rfl) ?_
  refine .cons (ld_ok (A := B + 1) (n := 1) (.pt (show t.r rsp + 8 = _ by omega) (by omega)) (by omega)) ?_
  refine .cons (alum_ok (A := B + 1) (n := 1) (.pt (show t.r rsp + 8 = _ by omega) (by omega)) (by omega) rfl) ?_
  refine .cons (orr_ok rfl) (.cons (orr_ok rfl) (.cons rfl (.nil ?_)))
  have hr := h.rv
  have k2 := K1.r rax (by decide)
  have k3 := K1.r gp1 (by decide)
  exact
    { v := by rw [← h.v, ← e1]; simp [R4, setA_r, setR_r, Function.update]
      u := by rw [← h.u, ← R4_keep K1 (by decide)]; simp [R4, setA_r, setR_r, Function.update]
      sv := by rw [← h.sv, ← R4_keep K1 (by decide)]; simp [R4, setA_r, setR_r, Function.update]
      r0 := by simp [hr, add4, setA, setR, Function.update, m1]
      r1 := by simp [hr, add4, setA, setR, Function.update, m1]
      r2 := by simp [hr, add4, setA, setR, Function.update, m1, k2]
      r3 := by simp [hr, add4, setA, setR, Function.update, m1, k2, k3]
      k := by simp [setA, setR, K1.x, h.k, h.one]; exact addd_one hk
      one := by simp [setA, setR, K1.x, h.one]
      z := by simp [setA, setR, Function.update, m1, h.z]
      sp := by simp [setA, setR, Function.update, hsp]
      fr := fun i hi => by
        rw [← h.fr i hi, ← m1]
        simp [setA, setR, Function.update, show i ≠ B by omega, show i ≠ B + 1 by omega]
      x := fun i hi => by
        rw [← h.x i hi, ← K1.x]
        simp [setA, setR, Function.update, show i ≠ 4 from fun e => hi (by rw [e]; decide)] }

theorem adds_ex (h : Lp st B Z s0 s) (hB : 8 * (B + 4) ≤ B64) :
    Ex preInv_adds s (Lp { st with s := (add4 st.s st.r 0).1 } B Z s0) := by
  unfold preInv_adds
  have hsp := h.sp
  refine .cons (orm_ok (A := B) (n := 1) (.pt (by omega) (by omega)) (by omega) rfl) ?_
  refine .cons (orm_ok (A := B + 1) (n := 1) (.pt (show s.r rsp + 8 = _ by omega) (by omega)) (by omega) rfl) ?_
  refine .cons (orr_ok rfl) (.cons (orr_ok rfl) (.nil ?_))
  have hr := h.rv
  exact
    { v := by simp [← h.v, R4, setA_r, Function.update]
      u := by simp [← h.u, R4, setA_r, Function.update]
      sv := by simp [← h.sv, hr, R4, add4, setA, setR, Function.update]
      r0 := by simp [setA, setR, h.r0]
      r1 := by simp [setA, setR, h.r1]
      r2 := by simp [setA, setR, Function.update, h.r2]
      r3 := by simp [setA, setR, Function.update, h.r3]
      k := by simp [setA, setR, h.k]
      one := by simp [setA, setR, h.one]
      z := by simp [setA, setR, h.z]
      sp := by simp [setA, setR, Function.update, hsp]
      fr := fun i hi => h.fr i hi
      x := fun i hi => h.x i hi }

theorem cmp_ex (h : Lp st B Z s0 s) :
    Ex preInv_cmp s fun t => t.cf = some (sub4 st.v st.u 0).2 ∧ Lp { st with v := (sub4 st.v st.u 0).1 } B Z s0 t ∧
      t.x 0 = st.v.w0 ∧ t.x 1 = st.v.w1 ∧ t.x 2 = st.v.w2 ∧ t.x 3 = st.v.w3 := by
  unfold preInv_cmp
  refine .cons rfl (.cons rfl (.cons rfl (.cons rfl ((chain_rr_ex false (by decide) _).mono ?_))))
  rintro t ⟨e1, c1, K, m1⟩
  have hv := h.v
  have ev : R4 s.r gt2 gt1 gp3 gp2 = st.v := h.v
  refine ⟨?_, ?_, ?_, ?_, ?_, ?_⟩
  · rw [c1, ← h.v, ← h.u]; rfl
  · exact
      { v := by rw [e1, ← h.v, ← h.u]; rfl
        u := (R4_keep K (by decide)).trans h.u
        sv := (R4_keep K (by decide)).trans h.sv
        r0 := by rw [m1]; exact h.r0
        r1 := by rw [m1]; exact h.r1
        r2 := (K.r rax (by decide)).trans h.r2
        r3 := (K.r gp1 (by decide)).trans h.r3
        k := by rw [K.x]; simp [Function.update, h.k]
        one := by rw [K.x]; simp [Function.update, h.one]
        z := by rw [m1]; exact h.z
        sp := (K.r rsp (by decide)).trans h.sp
        fr := fun i hi => by rw [m1]; exact h.fr i hi
        x := fun i hi => by
          rw [K.x, ← h.x i hi]
          have h0 : i ≠ 0 := fun e => hi (by rw [e]; decide)
          have h1 : i ≠ 1 := fun e => hi (by rw [e]; decide)
          have h2 : i ≠ 2 := fun e => hi (by rw [e]; decide)
          have h3 : i ≠ 3 := fun e => hi (by rw [e]; decide)
          simp [Function.update, h0, h1, h2, h3] }
  all_goals rw [K.x, ← h.v]; simp [Function.update, R4]

theorem next3_ex {d : W4} (h : Lp { st with v := d } B Z s0 s) (h0 : s.x 0 = st.v.w0) (h1 : s.x 1 = st.v.w1) (h2 : s.x 2 = st.v.w2) (h3 : s.x 3 = st.v.w3)
    (hB : 8 * (B + 4) ≤ B64) : Ex preInv_next3 s (Lp { st with u := (sub4 st.u st.v 0).1, r := (add4 st.r st.s 0).1 } B Z s0) := by
  unfold preInv_next3
  rw [List.append_assoc]
  refine Ex.append (a := [_, _, _, _]) (P := fun t => t.m = s.m ∧ t.x = s.x ∧ R4 t.r gt2 gt1 gp3 gp2 = st.v ∧ Keep [gp2, gp3, gt1, gt2] s t)
    (.cons rfl (.cons rfl (.cons rfl (.cons rfl (.nil ⟨rfl, rfl, ?_, by keeps, rfl⟩))))) ?_
  · simp [R4, setR, Function.update, h0, h1, h2, h3]
  rintro t ⟨m1, x1, e1, K1⟩
  refine Ex.append (chain_rr_ex false (by decide) t) ?_
  rintro w ⟨e2, -, K2, m2⟩
  have K := (K1.mono (M := [gp2, gp3, gt1, gt2, gt6, gt5, gt4, gt3]) (by decide)).trans (K2.mono (by decide))
  have hm : w.m = s.m := m2.trans m1
  have hsp : w.r rsp = 8 * B := (K.r rsp (by decide)).trans h.sp
  refine .cons (alum_ok (A := B) (n := 1) (.pt (by omega) (by omega)) (by omega) rfl) ?_
  refine .cons (alum_ok (A := B + 1) (n := 1) (.pt (show w.r rsp + 8 = _ by omega) (by omega)) (by omega) rfl) ?_
  refine .cons (orr_ok rfl) (.cons (orr_ok rfl) (.nil ?_))
  have hr : st.r = _ := h.rv
  have hs : R4 w.r gt10 gt9 gt8 gt7 = st.s := (R4_keep K (by decide)).trans h.sv
  have k2 := K.r rax (by decide)
  have k3 := K.r gp1 (by decide)
  exact
    { v := by
        show _ = st.v
        rw [← e1, ← R4_keep K2 (by decide)]; simp [R4, setA_r, Function.update]
      u := by
        have e3 := R4_keep K1 (z3 := gt6) (z2 := gt5) (z1 := gt4) (z0 := gt3) (by decide)
        rw [e3, h.u, e1] at e2
        show _ = (sub4 st.u st.v 0).1
        rw [show (sub4 st.u st.v 0).1 = R4 w.r gt6 gt5 gt4 gt3 from e2.symm]; simp [R4, setA_r, Function.update]
      sv := by
        show _ = st.s
        rw [← hs]; simp [R4, setA_r, Function.update]
      r0 := by simp [hr, ← hs, R4, add4, setA, setR, Function.update, hm]
      r1 := by simp [hr, ← hs, R4, add4, setA, setR, Function.update, hm]
      r2 := by simp [hr, ← hs, R4, add4, setA, setR, Function.update, hm, k2]
      r3 := by simp [hr, ← hs, R4, add4, setA, setR, Function.update, hm, k2, k3]
      k := by simp [setA, setR, K.x, h.k]
      one := by simp [setA, setR, K.x, h.one]
      z := by simp [setA, setR, Function.update, hm, h.z]
      sp := by simp [setA, setR, Function.update, hsp]
      fr := fun i hi => by
        rw [← h.fr i hi, ← hm]
        simp [setA, setR, Function.update, show i ≠ B by omega, show i ≠ B + 1 by omega]
      x := fun i hi => by
        rw [← h.x i hi, ← K.x]
        simp [setA, setR] }

/-! the places of the code, with R behind the routine -/
def L4 (g : Cfg) (R : Code) : Code := ops (preInv_exit g) ++ R
def L3 (g : Cfg) (R : Code) : Code := ops preInv_ueven ++ (.jmp 0 :: .lab 4 :: L4 g R)
def L2 (g : Cfg) (R : Code) : Code := ops preInv_next3 ++ (.lab 3 :: L3 g R)
def L1 (g : Cfg) (R : Code) : Code := ops preInv_veven ++ (.jmp 0 :: .lab 2 :: L2 g R)
def L0 (g : Cfg) (R : Code) : Code :=
  ops preInv_test ++ (.jcc .z 4 :: (ops [.test gt3 1] ++ (.jcc .z 3 :: (ops [.test gp2 1] ++ (.jcc .z 1 :: (ops preInv_cmp ++ (.jcc .cy 2 ::
    (ops preInv_adds ++ (.lab 1 :: L1 g R)))))))))

abbrev R0 : Code := ops (restoreReg 10 4) ++ [.ret]

theorem preInv_body (g : Cfg) (R : Code) : (ops (preInv_head g) ++ .lab 0 :: (ops preInv_test ++ .jcc .z 4 :: (ops [.test gt3 1] ++ .jcc .z 3 ::
    (ops [.test gp2 1] ++ .jcc .z 1 :: (ops preInv_cmp ++ .jcc .cy 2 :: (ops preInv_adds ++ .lab 1 :: (ops preInv_veven ++
    .jmp 0 :: .lab 2 :: (ops preInv_next3 ++ .lab 3 :: (ops preInv_ueven ++ .jmp 0 :: .lab 4 :: ops (preInv_exit g)))))))))) ++ R =
    ops (preInv_head g) ++ (.lab 0 :: L0 g R) := by
  simp only [L0, L1, L2, L3, L4, List.append_assoc, List.cons_append]

theorem preInv_code (g : Cfg) : code g .FpPreInv = ops (storeReg 10 4) ++ (ops (preInv_head g) ++ (.lab 0 :: L0 g R0)) := by
  rw [← preInv_body]
  rfl

theorem preInv_t0 (g : Cfg) : target 0 (code g .FpPreInv) = .ok (L0 g R0) := by
  rw [preInv_code, target_ops, target_ops, target_lab]
theorem preInv_t1 (g : Cfg) : target 1 (code g .FpPreInv) = .ok (L1 g R0) := by
  rw [preInv_code, target_ops, target_ops, target_lab_ne (by decide), L0]
  simp only [target_ops, target_jcc, target_lab]
theorem preInv_t2 (g : Cfg) : target 2 (code g .FpPreInv) = .ok (L2 g R0) := by
  rw [preInv_code, target_ops, target_ops, target_lab_ne (by decide), L0, L1]
  simp only [target_ops, target_jcc, target_jmp, target_lab, target_lab_ne (show 1 ≠ 2 by decide)]
theorem preInv_t3 (g : Cfg) : target 3 (code g .FpPreInv) = .ok (L3 g R0) := by
  rw [preInv_code, target_ops, target_ops, target_lab_ne (by decide), L0, L1, L2]
  simp only [target_ops, target_jcc, target_jmp, target_lab, target_lab_ne (show 1 ≠ 3 by decide), target_lab_ne (show 2 ≠ 3 by decide)]
theorem preInv_t4 (g : Cfg) : target 4 (code g .FpPreInv) = .ok (L4 g R0) := by
  rw [preInv_code, target_ops, target_ops, target_lab_ne (by decide), L0, L1, L2, L3]
  simp only [target_ops, target_jcc, target_jmp, target_lab, target_lab_ne (show 1 ≠ 4 by decide), target_lab_ne (show 2 ≠ 4 by decide), target_lab_ne (show 3 ≠ 4 by decide)]

theorem Lp.flags {c : Option ℕ} {z : Option Bool} (h : Lp st B Z s0 s) : Lp st B Z s0 { s with cf := c, zf := z } :=
  ⟨h.v, h.u, h.sv, h.r0, h.r1, h.r2, h.r3, h.k, h.one, h.z, h.sp, h.fr, h.x⟩

theorem test_ex (h : Lp st B Z s0 s) : Ex preInv_test s fun t => t.zf = some ((st.v.w0 ||| st.v.w1 ||| st.v.w2 ||| st.v.w3) == 0) ∧ Lp st B Z s0 t := by
  refine ⟨_, rfl, ?_, ?_⟩
  · simp [← h.v, R4, setR, Function.update]
  · exact
      { v := by simp [← h.v, R4, setR, Function.update]
        u := by simp [← h.u, R4, setR, Function.update]
        sv := by simp [← h.sv, R4, setR, Function.update]
        r0 := h.r0
        r1 := h.r1
        r2 := by simp [← h.r2, setR, Function.update]
        r3 := by simp [← h.r3, setR, Function.update]
        k := h.k
        one := h.one
        z := h.z
        sp := by simp [← h.sp, setR, Function.update]
        fr := h.fr
        x := h.x }

theorem inv_step (h : Lp st B Z s0 s) (hv : (st.v.w0 ||| st.v.w1 ||| st.v.w2 ||| st.v.w3) ≠ 0) (hk : st.k < 511) (hB : 8 * (B + 4) ≤ B64) :
    At (code g) ra .FpPreInv (L0 g R0) (L0 g R0) s (Lp (invStep st) B Z s0) := by
  refine At.trans (At.ops (test_ex h)) ?_
  rintro t ⟨hz, h⟩
  refine At.pass (by simp [holds, hz, flag, hv]) ?_
  refine At.trans (At.ops (Q := fun w => w.zf = some (st.u.w0 &&& 1 == 0) ∧ Lp st B Z s0 w) ⟨_, rfl, by rw [← h.u]; rfl, h.flags⟩) ?_
  rintro w ⟨hz, h⟩
  rw [Nat.and_one_is_mod] at hz
  unfold invStep
  by_cases hu : st.u.w0 % 2 = 0
  · rw [if_pos hu]
    refine At.jcc (by simp [holds, hz, flag, hu]) (preInv_t3 g) ?_
    refine At.trans (At.ops (ueven_ex h (by omega))) fun t ht => ?_
    exact At.jmp (preInv_t0 g) (At.refl ht)
  rw [if_neg hu]
  refine At.pass (by simp [holds, hz, flag, hu]) ?_
  clear hz
  refine At.trans (At.ops (Q := fun w => w.zf = some (st.v.w0 &&& 1 == 0) ∧ Lp st B Z s0 w) ⟨_, rfl, by rw [← h.v]; rfl, h.flags⟩) ?_
  rintro w ⟨hz, h⟩
  rw [Nat.and_one_is_mod] at hz
  by_cases hv : st.v.w0 % 2 = 0
  · rw [if_pos hv]
    refine At.jcc (by simp [holds, hz, flag, hv]) (preInv_t1 g) ?_
    refine At.trans (At.ops (veven_ex h (by omega) hB)) fun t ht => ?_
    exact At.jmp (preInv_t0 g) (At.refl ht)
  rw [if_neg hv]
  refine At.pass (by simp [holds, hz, flag, hv]) ?_
  refine At.trans (At.ops (cmp_ex h)) ?_
  rintro t ⟨hc, h, x0, x1, x2, x3⟩
  rcases op4_carry st.v st.u 0 with e | e
  · dsimp only
    rw [if_pos e]
    refine At.pass (by simp [holds, hc, flag, e]) ?_
    refine At.trans (At.ops (adds_ex h hB)) fun t ht => At.lab ?_
    refine At.trans (At.ops (veven_ex ht (by show st.k < _; omega) hB)) fun t ht => ?_
    exact At.jmp (preInv_t0 g) (At.refl ht)
  · dsimp only
    rw [if_neg (by omega)]
    refine At.jcc (by simp [holds, hc, flag, e]) (preInv_t2 g) ?_
    refine At.trans (At.ops (next3_ex h x0 x1 x2 x3 hB)) fun t ht => At.lab ?_
    refine At.trans (At.ops (ueven_ex ht (by show st.k < _; omega))) fun t ht => ?_
    exact At.jmp (preInv_t0 g) (At.refl ht)

theorem invStep_k (st : InvSt) : (invStep st).k = st.k + 1 := by
  unfold invStep
  dsimp only
  split
  · rfl
  · split
    · rfl
    · split <;> rfl

theorem inv_loop (hB : 8 * (B + 4) ≤ B64) (n : ℕ) : ∀ st st' s, invLoop n st = .ok st' → st.k + n ≤ 511 → Lp st B Z s0 s →
    At (code g) ra .FpPreInv (L0 g R0) (L4 g R0) s (Lp st' B Z s0) := by
  have done : ∀ st s, Lp st B Z s0 s → (st.v.w0 ||| st.v.w1 ||| st.v.w2 ||| st.v.w3) = 0 → At (code g) ra .FpPreInv (L0 g R0) (L4 g R0) s (Lp st B Z s0) := by
    intro st s h hv
    refine At.trans (At.ops (test_ex h)) ?_
    rintro t ⟨hz, h⟩
    exact At.jcc (by simp [holds, hz, flag, hv]) (preInv_t4 g) (At.refl h)
  induction n with
  | zero =>
    intro st st' s e _ h
    unfold invLoop at e
    split at e
    · cases e; exact done _ _ h ‹_›
    · cases e
  | succ n ih =>
    intro st st' s e hk h
    unfold invLoop at e
    split at e
    · cases e; exact done _ _ h ‹_›
    · exact At.trans (inv_step h ‹_› (by omega) hB) fun t ht => ih _ _ _ e (by rw [invStep_k]; omega) ht

theorem head_ex {X : ℕ} (hT : Tbl g s.m) (hz : s.r gp1 = 8 * Z) (hx : s.r gp2 = 8 * X) (hX : 8 * (X + 4) ≤ B64) (hsp : s.r rsp = 8 * B) (hB : 8 * (B + 4) ≤ B64) :
    Ex (preInv_head g) s (Lp ⟨pTbl 1, rd4 s.m X, W4.of 0, W4.of 1, 0⟩ B Z s) := by
  have hpb := hT.pb
  unfold preInv_head
  rw [List.append_assoc, List.cons_append, List.nil_append]
  refine .cons (t := setR s rdx (8 * (g.pT + 4 * 1))) (by rw [← hpt g 1 (by omega)]; rfl) ?_
  refine Ex.append (load_rm_ex (A := g.pT + 4) (by decide) (by decide) (.pt (by simp [setR]) (by omega))) ?_
  rintro t ⟨e1, K1, m1, -⟩
  have hp1 : rd4 s.m (g.pT + 4) = pTbl 1 := hT.p 1 (by omega)
  rw [setR_m, hp1] at e1
  rw [setR_m] at m1
  have a0 : t.r gp1 = 8 * Z := (K1.r gp1 (by decide)).trans (by rw [setR_r, Function.update_of_ne (by decide)]; exact hz)
  have a1 : t.r gp2 = 8 * X := (K1.r gp2 (by decide)).trans (by rw [setR_r, Function.update_of_ne (by decide)]; exact hx)
  have a2 : t.r rsp = 8 * B := (K1.r rsp (by decide)).trans (by rw [setR_r, Function.update_of_ne (by decide)]; exact hsp)
  have a3 : t.x = s.x := K1.x
  refine Ex.append (a := [_, _, _, _]) (P := fun u => u.m = s.m ∧ R4 u.r gt2 gt1 gp3 gp2 = rd4 s.m X ∧ Keep [gt2, gt1, gp3, gp2] t u) ?_ ?_
  · refine .cons (ld_ok (A := X + 3) (n := 1) (.pt (show t.r gp2 + 24 = _ by omega) (by omega)) (by omega)) ?_
    refine .cons (ld_ok (A := X + 2) (n := 1) (.pt (show t.r gp2 + 16 = _ by omega) (by omega)) (by omega)) ?_
    refine .cons (ld_ok (A := X + 1) (n := 1) (.pt (show t.r gp2 + 8 = _ by omega) (by omega)) (by omega)) ?_
    refine .cons (ld_ok (A := X) (n := 1) (.pt (show t.r gp2 + 0 = _ by omega) (by omega)) (by omega)) (.nil ⟨m1, ?_, by keeps, rfl⟩)
    simp [R4, rd4, setR, Function.update, m1]
  rintro u ⟨m2, e2, K2⟩
  refine Ex.append (a := [_, _, _, _]) (P := fun w => w.m = s.m ∧ (w.r gt10 = 0 ∧ w.r gt9 = 0 ∧ w.r gt8 = 0 ∧ w.r gt7 = 1) ∧ Keep [gt10, gt9, gt8, gt7] u w) ?_ ?_
  · refine .cons (orr_ok rfl) (.cons (lea_ok _ _ _) (.cons (mv_ok _ _ _) (.cons (mv_ok _ _ _) (.nil ⟨m2, ⟨?_, ?_, ?_, ?_⟩, ?_, rfl⟩))))
    · simp [setR, setA, Function.update]
    · simp [setR, setA, Function.update]
    · simp [setR, setA, Function.update]
    · simp [setR, setA, Function.update, ea, pt, idxVal]
    · keeps
  rintro w ⟨m3, ⟨q1, q2, q3, q4⟩, K3⟩
  have w0 : w.r gp1 = 8 * Z := (K3.r gp1 (by decide)).trans ((K2.r gp1 (by decide)).trans a0)
  have w2 : w.r rsp = 8 * B := (K3.r rsp (by decide)).trans ((K2.r rsp (by decide)).trans a2)
  have w3 : w.x = s.x := K3.x.trans (K2.x.trans a3)
  have w4 := (R4_keep K3 (z3 := gt2) (z2 := gt1) (z1 := gp3) (z0 := gp2) (by decide)).trans e2
  have w5 := (R4_keep K3 (z3 := gt6) (z2 := gt5) (z1 := gt4) (z0 := gt3) (by decide)).trans ((R4_keep K2 (by decide)).trans e1)
  clear K1 K2 K3 e1 e2 a0 a1 a2 a3 m1 m2
  refine Ex.append (a := [_, _, _]) (P := fun v => v.m B = 0 ∧ v.m (B + 1) = 0 ∧ v.m (B + 2) = 8 * Z ∧ v.r = w.r ∧ v.x = w.x ∧ ∀ i, i < B ∨ B + 4 ≤ i → v.m i = s.m i) ?_ ?_
  · refine .cons (st_ok (A := B) (n := 1) (.pt (show w.r rsp + 0 = _ by omega) (by omega)) (by omega)) ?_
    refine .cons (st_ok (A := B + 1) (n := 1) (.pt (show w.r rsp + 8 = _ by omega) (by omega)) (by omega)) ?_
    refine .cons (st_ok (A := B + 2) (n := 1) (.pt (show w.r rsp + 16 = _ by omega) (by omega)) (by omega)) (.nil ⟨?_, ?_, ?_, rfl, rfl, ?_⟩)
    · simp [Function.update, q1]
    · simp [Function.update, q1]
    · simp [w0]
    · intro i hi
      simp [Function.update, show i ≠ B by omega, show i ≠ B + 1 by omega, show i ≠ B + 2 by omega, m3]
  rintro v ⟨v0, v1, v2, v3, v4, v5⟩
  refine .cons (orr_ok rfl) (.cons (orr_ok rfl) (.cons rfl (.cons rfl (.cons rfl (.nil ?_)))))
  have z0 : W4.of 0 = ⟨0, 0, 0, 0⟩ := rfl
  have z1 : W4.of 1 = ⟨1, 0, 0, 0⟩ := rfl
  exact
    { v := by rw [← w4]; simp [R4, setA, setR, Function.update, v3]
      u := by rw [← w5]; simp [R4, setA, setR, Function.update, v3]
      sv := by simp [R4, setA, setR, Function.update, v3, q1, q2, q3, q4, z1]
      r0 := by simp [setA, setR, v0, z0]
      r1 := by simp [setA, setR, v1, z0]
      r2 := by simp [setA, setR, Function.update, z0]
      r3 := by simp [setA, setR, Function.update, z0]
      k := by simp [setA, setR, Function.update]
      one := by simp [setA, setR, Function.update, v3, q4]
      z := v2
      sp := by simp [setA, setR, Function.update, v3, w2]
      fr := v5
      x := fun i hi => by
        rw [← w3, ← v4]
        simp [setA, setR, Function.update, show i ≠ 4 from fun e => hi (by rw [e]; decide), show i ≠ 5 from fun e => hi (by rw [e]; decide)] }

theorem exit_ex (h : Lp st B Z s0 s) (hT : Tbl g s.m) (hZ : 8 * (Z + 4) ≤ B64) (hB : 8 * (B + 4) ≤ B64) :
    Ex (preInv_exit g) s fun t => t.m = wr4 s.m Z (sub4 (pTbl 2) st.r 0).1 ∧ t.x = s.x ∧ t.r rsp = s.r rsp ∧ t.r rax = st.k := by
  have hpb := hT.pb
  unfold preInv_exit
  simp only [List.append_assoc, List.cons_append, List.nil_append]
  refine .cons (t := setR s rdx (8 * (g.pT + 4 * 2))) (by rw [← hpt g 2 (by omega)]; rfl) ?_
  refine Ex.append (load_rm_ex (A := g.pT + 8) (by decide) (by decide) (.pt (by simp [setR]) (by omega))) ?_
  rintro t ⟨e1, K1, m1, -⟩
  have hp1 : rd4 s.m (g.pT + 8) = pTbl 2 := hT.p 2 (by omega)
  rw [setR_m, hp1] at e1
  rw [setR_m] at m1
  have a2 : t.r rsp = 8 * B := (K1.r rsp (by decide)).trans (by rw [setR_r, Function.update_of_ne (by decide)]; exact h.sp)
  have a3 : t.x = s.x := K1.x
  have a4 : t.r rax = s.r rax := (K1.r rax (by decide)).trans (by rw [setR_r, Function.update_of_ne (by decide)])
  have a5 : t.r gp1 = s.r gp1 := (K1.r gp1 (by decide)).trans (by rw [setR_r, Function.update_of_ne (by decide)])
  refine Ex.append (a := [_, _, _, _, _]) (P := fun u => u.m = s.m ∧ u.x = s.x ∧ u.r rsp = 8 * B ∧ u.r gp1 = 8 * Z ∧
    R4 u.r gt10 gt9 gt8 gt7 = (sub4 (pTbl 2) st.r 0).1) ?_ ?_
  · refine .cons (orm_ok (A := B) (n := 1) (.pt (by omega) (by omega)) (by omega) rfl) ?_
    refine .cons (orm_ok (A := B + 1) (n := 1) (.pt (show t.r rsp + 8 = _ by omega) (by omega)) (by omega) rfl) ?_
    refine .cons (orr_ok rfl) (.cons (orr_ok rfl) ?_)
    refine .cons (ld_ok (A := B + 2) (n := 1) (.pt (show t.r rsp + 16 = _ by omega) (by omega)) (by omega)) (.nil ⟨m1, a3, ?_, ?_, ?_⟩)
    · simp [setA, setR, Function.update, a2]
    · simp [setA, setR, m1, h.z]
    · rw [← e1, h.rv]
      simp [R4, sub4, setA, setR, Function.update, m1, a4, a5]
  rintro u ⟨m2, x2, u1, u2, u3⟩
  refine Ex.append (store_mr_ex (A := Z) (.pt (by omega) hZ)) ?_
  rintro v ⟨r3, x3, -, m3⟩
  refine .cons rfl (.nil ⟨?_, ?_, ?_, ?_⟩)
  · show v.m = _
    rw [m3, m2, u3]
  · show v.x = _
    rw [x3, x2]
  · simp [setR, Function.update, r3, u1, h.sp]
  · simp [setR, x3, x2, h.k]

/-- z := the number of `wPreInv`; rax is the count -/
def B_PreInv (f : ℕ → ℕ) : Act := bodyA1 1 4 1 4 [] (un1 f) 10 0

theorem en_FpPreInv {P : ℕ → ℕ} {S k : ℕ} {f : ℕ → ℕ} {r : W4} (hf : f (vn 4 s.m (P 1)) = r.val) (he : wPreInv (W4.of (vn 4 s.m (P 1))) = .ok (r, k))
    (hp : Pre g ((B_PreInv f).frame 10 4) 1 P S s) :
    Fn (code g) ra .FpPreInv s fun t => Post g ((B_PreInv f).frame 10 4) 0 P S s t ∧ t.r rax = k := by
  refine frame_at' (a := B_PreInv f) (fun v => v = k) (by decide) rfl hp (fun t hq hr hm => ?_) rfl rfl rfl (show rsp ∉ gts 10 by decide)
    (show ∀ e ∈ elts 0 4 1, e.w < 2 ∧ e.o + e.n ≤ ([4, 4] : List ℕ).getD e.w 0 by decide) (show ∀ e ∈ elts 1 4 1, e.w < 2 ∧ e.o + e.n ≤ ([4, 4] : List ℕ).getD e.w 0 by decide)
  have a0 : t.r gp1 + 0 = 8 * P 0 := hq.args 0 _ rfl
  have a1 : t.r gp2 + 0 = 8 * P 1 := hq.args 1 _ rfl
  have b0 : 8 * (P 0 + 4) ≤ B64 := hq.bnd 0 (show 0 < 2 by omega)
  have b1 : 8 * (P 1 + 4) ≤ B64 := hq.bnd 1 (show 1 < 2 by omega)
  have hdep : 0 + 10 ≤ S := hp.dep
  have htop : 8 * (S - 10 + 4) < B64 := hq.top
  have s0 := Dis.sep (show Dis (S - 10 - 0) (0 + 4) (P 0) 4 from hq.stk 0 (show 0 < 2 by omega)) (by omega) (by omega)
  have s00 := Dis.sep (show Dis (S - 10) (10 + 1) (P 1) 4 from hp.stk 1 (show 1 < 2 by omega)) (by omega) (by omega)
  have s1 := Dis.sep (show Dis (S - 10 - 0) (0 + 4) g.pT 40 from hq.stp) (by omega) (by omega)
  have s2 := Dis.sep (show Dis (S - 10 - 0) (0 + 4) g.hT 8 from hq.sth) (by omega) (by omega)
  have s3 := Dis.sep (show Dis (S - 10 - 0) (0 + 4) g.nT 32 from hq.stn) (by omega) (by omega)
  have hx : vn 4 t.m (P 1) = vn 4 s.m (P 1) := vn_congr fun i _ _ => hm i (by show i < S - 10 ∨ S ≤ i; omega)
  have hsp : t.r rsp = 8 * (S - 10) := hq.sp
  rw [preInv_body]
  refine At.trans (At.ops (head_ex (X := P 1) (Z := P 0) (B := S - 10) hq.tbl (by omega) (by omega) b1 hsp (by omega))) ?_
  intro u hu
  have hw : rd4 t.m (P 1) = W4.of (vn 4 s.m (P 1)) := by rw [← hx]; exact (hq.good.of4 _).symm
  rw [hw] at hu
  unfold wPreInv at he
  generalize hl : invLoop 511 ⟨pTbl 1, W4.of (vn 4 s.m (P 1)), W4.of 0, W4.of 1, 0⟩ = res at he
  obtain ⟨st, rfl⟩ : ∃ st, res = .ok st := by
    cases res with
    | ok st => exact ⟨st, rfl⟩
    | _ => cases he
  rw [Res.bind_ok, Res.ok.injEq, Prod.mk.injEq] at he
  obtain ⟨rfl, rfl⟩ := he
  refine At.lab (At.trans (inv_loop (by omega) 511 _ _ _ hl (by show 0 + 511 ≤ 511; omega) hu) fun w hw => ?_)
  have hTw : Tbl g w.m := hq.tbl.congr (fun i _ _ => hw.fr i (by omega)) (fun i _ _ => hw.fr i (by omega)) (fun i _ _ => hw.fr i (by omega))
  refine (At.ops (exit_ex hw hTw b0 (by omega))).mono ?_
  rintro v ⟨v1, v2, v3, v4⟩
  refine ⟨⟨?_, ?_, ?_, ?_, fun e he => nomatch he⟩, v4⟩
  · intro i h1 h2
    have h3 := h1 ⟨0, 0, 4⟩ List.mem_cons_self
    replace h2 : ¬(S - 10 - 0 ≤ i ∧ i < S - 10 + 4) := h2
    simp only [Nat.add_zero] at h3
    rw [v1, wr4_of _ _ _ (by omega), hw.fr i (by omega)]
  · intro p hm
    replace hm : p ∈ [(⟨0, 0, 4⟩, f (vn 4 t.m (P 1)))] := hm
    rw [hx, hf] at hm
    simp only [List.mem_cons, List.not_mem_nil, or_false] at hm
    subst hm
    show vn 4 v.m (P 0) = _
    rw [vn_rd4, v1, rd4_wr4]
  · intro q hq'
    replace hq' : q ∉ gts 10 := hq'
    have : q = rsp := by revert hq'; cases q <;> decide
    rw [this, v3, hw.sp, hsp]
  · intro i hi
    rw [v2, hw.x i hi]

end

end Jit
end Verif
