import Verif.Jit.Frame
import Verif.Tower.Raw
import Verif.Fp.WordLemmas

/-! The straight-line blocks as `Act`s. -/

namespace Verif
namespace Jit

open Fp Reg

/-- The operations on numbers that occur in the routines.  The runs are done for arbitrary ones; `std` are the actual ones. -/
structure Ops where
  add : ℕ → ℕ → ℕ
  sub : ℕ → ℕ → ℕ
  addNC : ℕ → ℕ → ℕ
  subNC : ℕ → ℕ → ℕ
  mul : ℕ → ℕ → ℕ
  neg : ℕ → ℕ
  divBy2 : ℕ → ℕ
  add2z3x : ℕ → ℕ → ℕ
  g4 : ℕ → ℕ → ℕ
  /-- x + p - y -/
  aps : ℕ → ℕ → ℕ
  dAdd : ℕ → ℕ → ℕ
  dSub : ℕ → ℕ → ℕ
  dAddNC : ℕ → ℕ → ℕ
  dSubNC : ℕ → ℕ → ℕ
  dSubOpt1 : ℕ → ℕ → ℕ
  dMul : ℕ → ℕ → ℕ
  dMod : ℕ → ℕ

def std : Ops where
  add := Fp.add
  sub := Fp.sub
  addNC := Fp.addNC
  subNC := Fp.subNC
  mul := Fp.mul
  neg := Fp.neg
  divBy2 := Fp.divBy2
  add2z3x := Fp.add2z3x
  g4 := Fp.compG4
  aps x y := Fp.subNC (Fp.addNC x (pTbl 1).val) y
  dAdd := Fp.dblAdd
  dSub := Fp.dblSub
  dAddNC := Fp.dblAddNC
  dSubNC := Fp.dblSubNC
  dSubOpt1 := Fp.dblSubOpt1
  dMul := Fp.dblMul
  dMod := Fp.dblMod

section
variable {g : Cfg} {a : Act} {P : ℕ → ℕ} {S : ℕ} {s : St} {ra : Sub → ℕ → ℕ}

/-! ### words and numbers -/

theorem vn_rd4 (m : ℕ → ℕ) (A : ℕ) : vn 4 m A = (rd4 m A).val := by
  simp only [vn, rd4, W4.val, Nat.mul_zero, Nat.add_zero, Nat.add_assoc]
theorem vn_rd8 (m : ℕ → ℕ) (A : ℕ) : vn 8 m A = (rd8 m A).val := by
  simp only [vn, rd8, rd4, W8.val, W4.val, Nat.mul_zero, Nat.add_zero, Nat.add_assoc, Nat.reduceAdd]
  omega

theorem rd4_wr4 (m : ℕ → ℕ) (A : ℕ) (v : W4) : rd4 (wr4 m A v) A = v := by
  unfold rd4 wr4
  simp [Function.update]
theorem rd8_wr8 (m : ℕ → ℕ) (A : ℕ) (v : W8) : rd8 (wr8 m A v) A = v := by
  unfold rd8 wr8
  rw [rd4_wr4, rd4_wr4_of (by omega), rd4_wr4]

theorem Good.rd4 (h : Good s) (A : ℕ) : (rd4 s.m A).Ok := ⟨h.m _, h.m _, h.m _, h.m _⟩
theorem Good.rd8 (h : Good s) (A : ℕ) : (rd8 s.m A).Ok := ⟨h.rd4 _, h.rd4 _⟩

theorem W8.of_val {x : W8} (h : x.Ok) : W8.of x.val = x := by
  obtain ⟨h1, h2⟩ := h
  have := W4.val_lt h1
  have := W4.val_lt h2
  rcases x with ⟨l, u⟩
  simp only [W8.of, W8.val] at *
  have e1 : (l.val + W256 * u.val) / W256 = u.val := by omega
  rw [e1, W4.of_val h2]
  have e2 : W4.of (l.val + W256 * u.val) = W4.of l.val := by
    have e : ∀ n, W4.of (n % W256) = W4.of n := by
      intro n
      unfold W4.of
      simp only [W4.mk.injEq]
      refine ⟨?_, ?_, ?_, ?_⟩ <;> norm_num only <;> omega
    rw [← e, Nat.add_mul_mod_self_left, e]
  rw [e2, W4.of_val h1]

theorem Good.of4 (h : Good s) (A : ℕ) : W4.of (vn 4 s.m A) = Jit.rd4 s.m A := by rw [vn_rd4, W4.of_val (h.rd4 A)]
theorem Good.of8 (h : Good s) (A : ℕ) : W8.of (vn 8 s.m A) = Jit.rd8 s.m A := by rw [vn_rd8, W8.of_val (h.rd8 A)]

theorem dblSubNC_def (x y : ℕ) : Fp.dblSubNC x y = (dSubNC (W8.of x) (W8.of y)).val := by unfold Fp.dblSubNC; rfl
theorem dblSubOpt1_def (x y : ℕ) : Fp.dblSubOpt1 x y = (dSubOpt1 (W8.of x) (W8.of y)).val := by unfold Fp.dblSubOpt1; rfl

theorem pTbl1_of : W4.of (pTbl 1).val = pTbl 1 := W4.of_val pTbl1_Ok

/-! ### from straight-line code to `Act`s -/

theorem Pre.ptr {up w n : ℕ} {z : Addr} (hp : Pre g a up P S s) (h : a.args[w]? = some (.ad z.base z.disp)) (hi : z.idx = none) (hn : n ≤ a.l w) :
    Ptr s.r z (P w) n := by
  have h1 := hp.args w _ h
  have h2 := hp.bnd w (List.getElem?_eq_some_iff.1 h).1
  simp only [Arg.val] at h1
  refine ⟨?_, by omega⟩
  rw [hi]
  simp only [idxVal]
  omega

theorem Pre.pt1 {up : ℕ} (hp : Pre g a up P S s) : rd4 s.m (g.pT + 4) = pTbl 1 := hp.tbl.p 1 (by omega)

theorem sat_wr4 {c : List Op} {w : ℕ} (ho : a.outs = [⟨w, 0, 4⟩])
    (h : ∀ s P S, Pre g a 0 P S s → Ex c s fun t => (∃ v, t.m = wr4 s.m (P w) v ∧ a.f (a.inp P s.m) = [v.val]) ∧
      KeepX a.clob a.clobX s t ∧ ∀ e ∈ a.post, t.r e.1 = 8 * (g.pT + e.2)) : Sat g ra (ops c) a := by
  intro k s P S hp
  refine (Trip.ops (h s P S hp)).mono ?_
  rintro t ⟨⟨v, h1, h2⟩, h3, h4⟩
  refine ⟨?_, ?_, h3.r, h3.x, h4⟩
  · intro i hi _
    have := hi ⟨w, 0, 4⟩ (by rw [ho]; exact List.mem_cons_self)
    simp only [Nat.add_zero] at this
    rw [h1, wr4_of _ _ _ (by omega)]
  · intro p hm
    rw [ho, h2] at hm
    simp only [List.zip_cons_cons, List.zip_nil_right, List.mem_cons, List.not_mem_nil, or_false] at hm
    subst hm
    show vn 4 t.m (P w + 0) = v.val
    rw [vn_rd4, h1, Nat.add_zero, rd4_wr4]

theorem sat_wr8 {c : List Op} {w : ℕ} (ho : a.outs = [⟨w, 0, 8⟩])
    (h : ∀ s P S, Pre g a 0 P S s → Ex c s fun t => (∃ v, t.m = wr8 s.m (P w) v ∧ a.f (a.inp P s.m) = [v.val]) ∧
      KeepX a.clob a.clobX s t ∧ ∀ e ∈ a.post, t.r e.1 = 8 * (g.pT + e.2)) : Sat g ra (ops c) a := by
  intro k s P S hp
  refine (Trip.ops (h s P S hp)).mono ?_
  rintro t ⟨⟨v, h1, h2⟩, h3, h4⟩
  refine ⟨?_, ?_, h3.r, h3.x, h4⟩
  · intro i hi _
    have := hi ⟨w, 0, 8⟩ (by rw [ho]; exact List.mem_cons_self)
    simp only [Nat.add_zero] at this
    rw [h1, wr8, wr4_of _ _ _ (by omega), wr4_of _ _ _ (by omega)]
  · intro p hm
    rw [ho, h2] at hm
    simp only [List.zip_cons_cons, List.zip_nil_right, List.mem_cons, List.not_mem_nil, or_false] at hm
    subst hm
    show vn 8 t.m (P w + 0) = v.val
    rw [vn_rd8, h1, Nat.add_zero, rd8_wr8]

/-! ### the blocks -/

def arg (z : Addr) : Arg := .ad z.base z.disp

/-- a binary operation on fields -/
def bin4 (f : ℕ → ℕ → ℕ) (z x y : Addr) (al : List (ℕ × ℕ × Bool)) (pre : List (Reg × ℕ)) (clob : List Reg) : Act where
  args := [arg z, arg x, arg y]
  len := [4, 4, 4]
  al := al
  ins := [⟨1, 0, 4⟩, ⟨2, 0, 4⟩]
  outs := [⟨0, 0, 4⟩]
  f v := [f (v.getD 0 0) (v.getD 1 0)]
  pre := pre
  post := []
  clob := clob
  clobX := []
  depth := 0

/-- a binary operation on `Dbl`s -/
def bin8 (f : ℕ → ℕ → ℕ) (z x y : Addr) (al : List (ℕ × ℕ × Bool)) (post : List (Reg × ℕ)) (clob : List Reg) : Act where
  args := [arg z, arg x, arg y]
  len := [8, 8, 8]
  al := al
  ins := [⟨1, 0, 8⟩, ⟨2, 0, 8⟩]
  outs := [⟨0, 0, 8⟩]
  f v := [f (v.getD 0 0) (v.getD 1 0)]
  pre := []
  post := post
  clob := clob
  clobX := []
  depth := 0

/-- a unary operation on fields -/
def un4 (f : ℕ → ℕ) (z x : Addr) (clob : List Reg) : Act where
  args := [arg z, arg x]
  len := [4, 4]
  al := []
  ins := [⟨1, 0, 4⟩]
  outs := [⟨0, 0, 4⟩]
  f v := [f (v.getD 0 0)]
  pre := []
  post := []
  clob := clob
  clobX := []
  depth := 0

/-- z and each of x, y have no common word or are the same -/
abbrev inPlace : List (ℕ × ℕ × Bool) := [(0, 1, true), (0, 2, true)]

theorem Pre.seq {up w n : ℕ} (hp : Pre g a up P S s) (h : (0, w, true) ∈ a.al) (h0 : a.l 0 = n) (hw : a.l w = n) (hn : 0 < n) : Seq (P 0) (P w) n := by
  rcases hp.al _ h with h | ⟨-, h⟩
  · have := h.sep (by rw [h0]; exact hn) (by simp only [hw]; exact hn)
    simp only [h0, hw] at this
    unfold Seq
    omega
  · simp only at h
    exact .inl h.le

def mviA : Act where
  args := []
  len := []
  al := []
  ins := []
  outs := []
  f _ := []
  pre := []
  post := [(rax, 4)]
  clob := [rax]
  clobX := []
  depth := 0

theorem mvi_sat : Sat g ra (ops [mvi rax (pTblAt g 1)]) mviA := by
  intro k s P S hp
  refine (Trip.ops (.cons (mvi_ok _ _ _) (.nil (Q := fun t => t = setR s rax (pTblAt g 1 % B64)) rfl))).mono ?_
  rintro t rfl
  have := hp.tbl.pb
  refine ⟨fun i _ _ => rfl, by simp [mviA], ?_, fun _ _ => rfl, ?_⟩
  · intro q hq
    exact Function.update_of_ne (by simpa [mviA] using hq) _ _
  · intro e he
    have : e = (rax, 4) := by simpa [mviA] using he
    subst this
    rw [setR_r, Function.update_self, hpt g 1 (by omega)]

def add1A (O : Ops) (z x y : Addr) : Act := bin4 O.add z x y [] [(rax, 4)] addRegs
def sub1A (O : Ops) (z x y : Addr) : Act := bin4 O.sub z x y [] [(rax, 4)] addRegs

theorem add1_sat {z x y : Addr} (hz : z.avoid addRegs) (hx : x.avoid addRegs) (hy : y.avoid addRegs)
    (iz : z.idx = none) (ix : x.idx = none) (iy : y.idx = none) : Sat g ra (ops (in_Fp_add1 g z x y)) (add1A std z x y) := by
  refine sat_wr4 (w := 0) rfl fun s P S hp => ?_
  have hr : s.r rax = 8 * (g.pT + 4) := hp.pre (rax, 4) List.mem_cons_self
  have := hp.tbl.pb
  refine (in_Fp_add1_ex g hz hx hy (hp.ptr (w := 0) rfl iz le_rfl) (hp.ptr (w := 1) rfl ix le_rfl) (hp.ptr (w := 2) rfl iy le_rfl) hr
    (by omega) hp.pt1).mono ?_
  rintro t ⟨h1, h2⟩
  refine ⟨⟨_, h1, ?_⟩, h2.toX _, by simp [add1A, bin4]⟩
  show [Fp.add (vn 4 s.m (P 1 + 0)) (vn 4 s.m (P 2 + 0))] = _
  rw [Fp.add, hp.good.of4, hp.good.of4]
  rfl

theorem sub1_sat {z x y : Addr} (hz : z.avoid addRegs) (hx : x.avoid addRegs) (hy : y.avoid addRegs)
    (iz : z.idx = none) (ix : x.idx = none) (iy : y.idx = none) : Sat g ra (ops (in_Fp_sub1 g z x y)) (sub1A std z x y) := by
  refine sat_wr4 (w := 0) rfl fun s P S hp => ?_
  have hr : s.r rax = 8 * (g.pT + 4) := hp.pre (rax, 4) List.mem_cons_self
  have := hp.tbl.pb
  refine (in_Fp_sub1_ex g hz hx hy (hp.ptr (w := 0) rfl iz le_rfl) (hp.ptr (w := 1) rfl ix le_rfl) (hp.ptr (w := 2) rfl iy le_rfl) hr
    (by omega) hp.pt1).mono ?_
  rintro t ⟨h1, h2⟩
  refine ⟨⟨_, h1, ?_⟩, h2.toX _, by simp [sub1A, bin4]⟩
  show [Fp.sub (vn 4 s.m (P 1 + 0)) (vn 4 s.m (P 2 + 0))] = _
  rw [Fp.sub, hp.good.of4, hp.good.of4]
  rfl

def ncA (O : Ops) (isAdd : Bool) (z x y : Addr) : Act := bin4 (match isAdd with | true => O.addNC | false => O.subNC) z x y inPlace [] [gt4, gt3, gt2, gt1]

theorem nc_sat (isAdd : Bool) {z x y : Addr} (hz : z.avoid [gt4, gt3, gt2, gt1]) (hx : x.avoid [gt4, gt3, gt2, gt1]) (hy : y.avoid [gt4, gt3, gt2, gt1])
    (iz : z.idx = none) (ix : x.idx = none) (iy : y.idx = none) : Sat g ra (ops (in_Fp_op_carry g isAdd z x y false)) (ncA std isAdd z x y) := by
  refine sat_wr4 (w := 0) rfl fun s P S hp => ?_
  refine (in_Fp_op_carry_ex g isAdd false hz hx hy (hp.ptr (w := 0) rfl iz le_rfl) (hp.ptr (w := 1) rfl ix le_rfl) (hp.ptr (w := 2) rfl iy le_rfl)
    (hp.seq (w := 1) (by simp [ncA, bin4]) rfl rfl (by omega)) (hp.seq (w := 2) (by simp [ncA, bin4]) rfl rfl (by omega)) (.no _)).mono ?_
  rintro t ⟨h1, -, h2⟩
  refine ⟨⟨_, h1, ?_⟩, h2.toX _, by simp [ncA, bin4]⟩
  cases isAdd
  · show [Fp.subNC (vn 4 s.m (P 1 + 0)) (vn 4 s.m (P 2 + 0))] = _
    rw [Fp.subNC, hp.good.of4, hp.good.of4]
    rfl
  · show [Fp.addNC (vn 4 s.m (P 1 + 0)) (vn 4 s.m (P 2 + 0))] = _
    rw [Fp.addNC, hp.good.of4, hp.good.of4]
    rfl

def dAddA (O : Ops) (z x y : Addr) : Act := bin8 O.dAdd z x y inPlace [(rax, 4)] (rax :: addRegs)
def dSubA (O : Ops) (z x y : Addr) : Act := bin8 O.dSub z x y inPlace [(rax, 4)] (rax :: addRegs)

theorem Pre.tblP {up w : ℕ} (hp : Pre g a up P S s) (h : ⟨0, 0, w⟩ ∈ a.outs) (hl : 8 = a.l 0) : g.pT + 8 ≤ P 0 ∨ P 0 + 8 ≤ g.pT + 4 := by
  have := (hp.outT _ h).1
  simp only [← hl] at this
  have := this.sep (by omega) (by omega)
  omega

theorem dAdd_sat {z x y : Addr} (hz : z.avoid (rax :: addRegs)) (hx : x.avoid (rax :: addRegs)) (hy : y.avoid (rax :: addRegs))
    (iz : z.idx = none) (ix : x.idx = none) (iy : y.idx = none) : Sat g ra (ops (in_FpDbl_add1 g z x y)) (dAddA std z x y) := by
  refine sat_wr8 (w := 0) rfl fun s P S hp => ?_
  have := hp.tbl.pb
  refine (in_FpDbl_add1_ex g hz hx hy (hp.ptr (w := 0) rfl iz le_rfl) (hp.ptr (w := 1) rfl ix le_rfl) (hp.ptr (w := 2) rfl iy le_rfl)
    (hp.seq (w := 1) (by simp [dAddA, bin8]) rfl rfl (by omega)) (hp.seq (w := 2) (by simp [dAddA, bin8]) rfl rfl (by omega)) (by omega) hp.pt1
    (hp.tblP (w := 8) (by simp [dAddA, bin8]) rfl)).mono ?_
  rintro t ⟨h1, h3, h2⟩
  refine ⟨⟨_, h1, ?_⟩, h2.toX _, by simpa [dAddA, bin8] using h3⟩
  show [Fp.dblAdd (vn 8 s.m (P 1 + 0)) (vn 8 s.m (P 2 + 0))] = _
  rw [Fp.dblAdd, hp.good.of8, hp.good.of8]
  rfl

theorem dSub_sat {z x y : Addr} (hz : z.avoid (rax :: addRegs)) (hx : x.avoid (rax :: addRegs)) (hy : y.avoid (rax :: addRegs))
    (iz : z.idx = none) (ix : x.idx = none) (iy : y.idx = none) : Sat g ra (ops (sub_FpDbl_sub g z x y)) (dSubA std z x y) := by
  refine sat_wr8 (w := 0) rfl fun s P S hp => ?_
  have := hp.tbl.pb
  refine (sub_FpDbl_sub_ex g hz hx hy (hp.ptr (w := 0) rfl iz le_rfl) (hp.ptr (w := 1) rfl ix le_rfl) (hp.ptr (w := 2) rfl iy le_rfl)
    (hp.seq (w := 1) (by simp [dSubA, bin8]) rfl rfl (by omega)) (hp.seq (w := 2) (by simp [dSubA, bin8]) rfl rfl (by omega)) (by omega) hp.pt1
    (hp.tblP (w := 8) (by simp [dSubA, bin8]) rfl)).mono ?_
  rintro t ⟨h1, h3, h2⟩
  refine ⟨⟨_, h1, ?_⟩, h2.toX _, by simpa [dSubA, bin8] using h3⟩
  show [Fp.dblSub (vn 8 s.m (P 1 + 0)) (vn 8 s.m (P 2 + 0))] = _
  rw [Fp.dblSub, hp.good.of8, hp.good.of8]
  rfl

def dncA (O : Ops) (isAdd : Bool) (z x y : Addr) : Act :=
  bin8 (match isAdd with | true => O.dAddNC | false => O.dSubNC) z x y inPlace [] [gt4, gt3, gt2, gt1]

theorem dnc_sat (isAdd : Bool) {z x y : Addr} (hz : z.avoid [gt4, gt3, gt2, gt1]) (hx : x.avoid [gt4, gt3, gt2, gt1])
    (hy : y.avoid [gt4, gt3, gt2, gt1]) (iz : z.idx = none) (ix : x.idx = none) (iy : y.idx = none) :
    Sat g ra (ops (in_Fp_op_carry g isAdd z x y false ++ in_Fp_op_carry g isAdd (z.plus 32) (x.plus 32) (y.plus 32) true)) (dncA std isAdd z x y) := by
  refine sat_wr8 (w := 0) rfl fun s P S hp => ?_
  refine (dblNC_ex g isAdd hz hx hy (hp.ptr (w := 0) rfl iz le_rfl) (hp.ptr (w := 1) rfl ix le_rfl) (hp.ptr (w := 2) rfl iy le_rfl)
    (hp.seq (w := 1) (by simp [dncA, bin8]) rfl rfl (by omega)) (hp.seq (w := 2) (by simp [dncA, bin8]) rfl rfl (by omega))).mono ?_
  rintro t ⟨h1, h2⟩
  refine ⟨⟨_, h1, ?_⟩, h2.toX _, by simp [dncA, bin8]⟩
  cases isAdd
  · show [Fp.dblSubNC (vn 8 s.m (P 1 + 0)) (vn 8 s.m (P 2 + 0))] = _
    simp only [dblSubNC_def, hp.good.of8, Nat.add_zero]
    rfl
  · show [Fp.dblAddNC (vn 8 s.m (P 1 + 0)) (vn 8 s.m (P 2 + 0))] = _
    rw [Fp.dblAddNC, hp.good.of8, hp.good.of8]
    rfl

/-- `mul4x4` with the given registers -/
def mul4A (O : Ops) (z x y : Addr) (clob : List Reg) : Act where
  args := [arg z, arg x, arg y]
  len := [8, 4, 4]
  al := [(0, 1, false), (0, 2, false)]
  ins := [⟨1, 0, 4⟩, ⟨2, 0, 4⟩]
  outs := [⟨0, 0, 8⟩]
  f v := [O.dMul (v.getD 0 0) (v.getD 1 0)]
  pre := []
  post := []
  clob := clob
  clobX := []
  depth := 0

theorem mul4_sat {z x y : Addr} {t9 t8 t7 t6 t5 t4 t3 t2 t1 t0 : Reg} (hn : [t9, t8, t7, t6, t5, t4, t3, t2, t1, t0, rax, rdx].Nodup)
    (hz : z.avoid [t9, t8, t7, t6, t5, t4, t3, t2, t1, t0, rax, rdx]) (hx : x.avoid [t9, t8, t7, t6, t5, t4, t3, t2, t1, t0, rax, rdx])
    (hy : y.avoid [t9, t8, t7, t6, t5, t4, t3, t2, t1, t0, rax, rdx]) (iz : z.idx = none) (ix : x.idx = none) (iy : y.idx = none) :
    Sat g ra (ops (mul4x4 g z x y t9 t8 t7 t6 t5 t4 t3 t2 t1 t0)) (mul4A std z x y [t9, t8, t7, t6, t5, t4, t3, t2, t1, t0, rax, rdx]) := by
  refine sat_wr8 (w := 0) rfl fun s P S hp => ?_
  have d1 : P 0 + 8 ≤ P 1 ∨ P 1 + 4 ≤ P 0 := by
    rcases hp.al (0, 1, false) (by simp [mul4A]) with h | ⟨h, -⟩
    · exact h.sep (by show 0 < 8; omega) (by show 0 < 4; omega)
    · cases h
  have d2 : P 0 + 8 ≤ P 2 ∨ P 2 + 4 ≤ P 0 := by
    rcases hp.al (0, 2, false) (by simp [mul4A]) with h | ⟨h, -⟩
    · exact h.sep (by show 0 < 8; omega) (by show 0 < 4; omega)
    · cases h
  refine (mul4x4_ex g hn hz hx hy (hp.ptr (w := 0) rfl iz le_rfl) (hp.ptr (w := 1) rfl ix le_rfl) (hp.ptr (w := 2) rfl iy le_rfl) d1 d2).mono ?_
  rintro t ⟨h1, h2⟩
  refine ⟨⟨_, h1, ?_⟩, h2.toX _, by simp [mul4A]⟩
  show [Fp.dblMul (vn 4 s.m (P 1 + 0)) (vn 4 s.m (P 2 + 0))] = _
  rw [Fp.dblMul, hp.good.of4, hp.good.of4]
  rfl

def mulA (O : Ops) : Act where
  args := [.ad gp1 0, .ad gp2 0, .ad gp3 0]
  len := [4, 4, 4]
  al := []
  ins := [⟨1, 0, 4⟩, ⟨2, 0, 4⟩]
  outs := [⟨0, 0, 4⟩]
  f v := [O.mul (v.getD 0 0) (v.getD 1 0)]
  pre := []
  post := []
  clob := mulRegs
  clobX := [0, 1]
  depth := 0

theorem mul_sat : Sat g ra (ops (Fp_mul g)) (mulA std) := by
  refine sat_wr4 (w := 0) rfl fun s P S hp => ?_
  have := hp.tbl.pb
  refine (Fp_mul_ex g (hp.args 0 _ rfl) (hp.args 1 _ rfl) (hp.args 2 _ rfl) (hp.bnd 0 (by decide)) (hp.bnd 1 (by decide)) (hp.bnd 2 (by decide))
    (by omega) hp.pt1).mono ?_
  rintro t ⟨h1, h2⟩
  refine ⟨⟨_, h1, ?_⟩, h2, by simp [mulA]⟩
  show [Fp.mul (vn 4 s.m (P 1 + 0)) (vn 4 s.m (P 2 + 0))] = _
  rw [Fp.mul, hp.good.of4, hp.good.of4]
  rfl

def modA (O : Ops) : Act where
  args := [.ad gp1 0, .ad gp2 0]
  len := [4, 8]
  al := []
  ins := [⟨1, 0, 8⟩]
  outs := [⟨0, 0, 4⟩]
  f v := [O.dMod (v.getD 0 0)]
  pre := []
  post := []
  clob := modRegs
  clobX := [0, 1]
  depth := 0

theorem mod_sat : Sat g ra (ops (mont_mod g)) (modA std) := by
  refine sat_wr4 (w := 0) rfl fun s P S hp => ?_
  have := hp.tbl.pb
  refine (mont_mod_ex g (hp.args 0 _ rfl) (hp.args 1 _ rfl) (hp.bnd 0 (by decide)) (hp.bnd 1 (by decide)) (by omega) hp.pt1).mono ?_
  rintro t ⟨h1, h2⟩
  refine ⟨⟨_, h1, ?_⟩, h2, by simp [modA]⟩
  show [Fp.dblMod (vn 8 s.m (P 1 + 0))] = _
  rw [Fp.dblMod, hp.good.of8]
  rfl

def divA (O : Ops) (z x : Addr) : Act := un4 O.divBy2 z x [gt4, gt3, gt2, gt1, rdx, gt5]

theorem div_sat {z x : Addr} (hz : z.avoid [gt4, gt3, gt2, gt1, rdx, gt5]) (hx : x.avoid [gt4, gt3, gt2, gt1, rdx, gt5])
    (iz : z.idx = none) (ix : x.idx = none) : Sat g ra (ops (sub_Fp_divBy2 g z x)) (divA std z x) := by
  refine sat_wr4 (w := 0) rfl fun s P S hp => ?_
  refine (sub_Fp_divBy2_ex g hz hx (hp.ptr (w := 0) rfl iz le_rfl) (hp.ptr (w := 1) rfl ix le_rfl) hp.tbl.hb hp.tbl.h).mono ?_
  rintro t ⟨h1, h2⟩
  refine ⟨⟨_, h1, ?_⟩, h2.toX _, by simp [divA, un4]⟩
  show [Fp.divBy2 (vn 4 s.m (P 1 + 0))] = _
  rw [Fp.divBy2, hp.good.of4]
  rfl

/-- the number z is read and written -/
def acc4 (f : ℕ → ℕ → ℕ) (z x : Addr) (clob : List Reg) : Act where
  args := [arg z, arg x]
  len := [4, 4]
  al := []
  ins := [⟨0, 0, 4⟩, ⟨1, 0, 4⟩]
  outs := [⟨0, 0, 4⟩]
  f v := [f (v.getD 0 0) (v.getD 1 0)]
  pre := []
  post := []
  clob := clob
  clobX := []
  depth := 0

def tzA (O : Ops) (z x : Addr) : Act := acc4 O.add2z3x z x [gt4, gt3, gt2, gt1, gp3, gt5, gt6, gt7, rax, rdx]

theorem tz_sat {z x : Addr} (hz : z.avoid [gt4, gt3, gt2, gt1, gp3, gt5, gt6, gt7, rax, rdx])
    (hx : x.avoid [gt4, gt3, gt2, gt1, gp3, gt5, gt6, gt7, rax, rdx]) (iz : z.idx = none) (ix : x.idx = none) :
    Sat g ra (ops (in_Fp_2z_add_3x g z x)) (tzA std z x) := by
  refine sat_wr4 (w := 0) rfl fun s P S hp => ?_
  have := hp.tbl.pb
  refine (in_Fp_2z_add_3x_ex g hz hx (hp.ptr (w := 0) rfl iz le_rfl) (hp.ptr (w := 1) rfl ix le_rfl) (by omega) fun i hi => hp.tbl.p i (by omega)).mono ?_
  rintro t ⟨h1, h2⟩
  refine ⟨⟨_, h1, ?_⟩, h2.toX _, by simp [tzA, acc4]⟩
  show [Fp.add2z3x (vn 4 s.m (P 0 + 0)) (vn 4 s.m (P 1 + 0))] = _
  rw [Fp.add2z3x, hp.good.of4, hp.good.of4]
  rfl

/-- t at rsp + 32 i, g4 at gt10 + 64 + 32 i -/
def g4A (O : Ops) (i : ℕ) : Act := acc4 (fun z x => O.g4 x z) (pt gt10 (64 + 32 * i)) (pt rsp (32 * i)) [gt4, gt3, gt2, gt1, gp1, gp2, gp3, gt5, rax, rdx]

theorem add4_ok (x y : W4) (c : ℕ) : (add4 x y c).1.Ok := ⟨adc_lt _ _ _, adc_lt _ _ _, adc_lt _ _ _, adc_lt _ _ _⟩
theorem sub4_ok (x y : W4) (c : ℕ) : (sub4 x y c).1.Ok := ⟨sbb_lt _ _ _, sbb_lt _ _ _, sbb_lt _ _ _, sbb_lt _ _ _⟩

theorem g4_sat (i : ℕ) : Sat g ra (ops (in_g4 g i)) (g4A std i) := by
  refine sat_wr4 (w := 0) rfl fun s P S hp => ?_
  have := hp.tbl.pb
  refine (in_g4_ex g i (hp.ptr (w := 0) rfl rfl le_rfl) (hp.ptr (w := 1) rfl rfl le_rfl) (by omega) fun i hi => hp.tbl.p i (by omega)).mono ?_
  rintro t ⟨h1, h2⟩
  refine ⟨⟨_, h1, ?_⟩, h2.toX _, by simp [g4A, acc4]⟩
  show [Fp.compG4 (vn 4 s.m (P 1 + 0)) (vn 4 s.m (P 0 + 0))] = _
  simp only [Fp.compG4, Fp.fastModp, Fp.addNC, Fp.subNC, hp.good.of4, pTbl1_of, wAddNC, wSubNC, W4.of_val (add4_ok _ _ _), W4.of_val (sub4_ok _ _ _), Nat.add_zero]
  rfl

def opt1A (O : Ops) (z x y : Addr) : Act := bin8 O.dSubOpt1 z x y [(0, 2, true)] [] (rax :: addRegs)

theorem opt1_sat {z x y : Addr} (hz : z.avoid (rax :: addRegs)) (hx : x.avoid (rax :: addRegs)) (hy : y.avoid (rax :: addRegs))
    (iz : z.idx = none) (ix : x.idx = none) (iy : y.idx = none) : Sat g ra (ops (in_FpDbl_subOpt1 g z x y)) (opt1A std z x y) := by
  refine sat_wr8 (w := 0) rfl fun s P S hp => ?_
  have := hp.tbl.nb
  refine (in_FpDbl_subOpt1_ex g hz hx hy (hp.ptr (w := 0) rfl iz le_rfl) (hp.ptr (w := 1) rfl ix le_rfl) (hp.ptr (w := 2) rfl iy le_rfl)
    (hp.seq (w := 2) (by simp [opt1A, bin8]) rfl rfl (by omega)) (by omega) hp.tbl.n).mono ?_
  rintro t ⟨h1, h2⟩
  refine ⟨⟨_, h1, ?_⟩, h2.toX _, by simp [opt1A, bin8]⟩
  show [Fp.dblSubOpt1 (vn 8 s.m (P 1 + 0)) (vn 8 s.m (P 2 + 0))] = _
  simp only [dblSubOpt1_def, hp.good.of8, Nat.add_zero]

/-- z is read and written -/
def dsncA (O : Ops) (z x : Addr) (clob : List Reg) : Act where
  args := [arg z, arg x]
  len := [8, 8]
  al := [(0, 1, true)]
  ins := [⟨0, 0, 8⟩, ⟨1, 0, 8⟩]
  outs := [⟨0, 0, 8⟩]
  f v := [O.dSubNC (v.getD 0 0) (v.getD 1 0)]
  pre := []
  post := []
  clob := clob
  clobX := []
  depth := 0

theorem dsnc_sat {z x : Addr} {t3 t2 t1 t0 : Reg} (hn : [t3, t2, t1, t0].Nodup) (hz : z.avoid [t3, t2, t1, t0]) (hx : x.avoid [t3, t2, t1, t0])
    (iz : z.idx = none) (ix : x.idx = none) : Sat g ra (ops (sub_Fp2Dbl_subNC g z x t3 t2 t1 t0)) (dsncA std z x [t3, t2, t1, t0]) := by
  refine sat_wr8 (w := 0) rfl fun s P S hp => ?_
  refine (sub_Fp2Dbl_subNC_ex g hn hz hx (hp.ptr (w := 0) rfl iz le_rfl) (hp.ptr (w := 1) rfl ix le_rfl)
    (hp.seq (w := 1) (by simp [dsncA]) rfl rfl (by omega))).mono ?_
  rintro t ⟨h1, h2⟩
  refine ⟨⟨_, h1, ?_⟩, h2.toX _, by simp [dsncA]⟩
  show [Fp.dblSubNC (vn 8 s.m (P 0 + 0)) (vn 8 s.m (P 1 + 0))] = _
  simp only [dblSubNC_def, hp.good.of8, Nat.add_zero]

def dbl1A (O : Ops) (z x : Addr) (clob : List Reg) : Act := un4 (fun x => O.addNC x x) z x clob

theorem dbl1_sat {z x : Addr} {t3 t2 t1 t0 : Reg} (hn : [t3, t2, t1, t0].Nodup) (hz : z.avoid [t3, t2, t1, t0]) (hx : x.avoid [t3, t2, t1, t0])
    (iz : z.idx = none) (ix : x.idx = none) :
    Sat g ra (ops (load_rm t3 t2 t1 t0 x ++ (add_rr t3 t2 t1 t0 t3 t2 t1 t0 ++ store_mr z t3 t2 t1 t0))) (dbl1A std z x [t3, t2, t1, t0]) := by
  refine sat_wr4 (w := 0) rfl fun s P S hp => ?_
  refine (dblNC1_ex hn hz hx (hp.ptr (w := 0) rfl iz le_rfl) (hp.ptr (w := 1) rfl ix le_rfl)).mono ?_
  rintro t ⟨h1, h2⟩
  refine ⟨⟨_, h1, ?_⟩, h2.toX _, by simp [dbl1A, un4]⟩
  show [Fp.addNC (vn 4 s.m (P 1 + 0)) (vn 4 s.m (P 1 + 0))] = _
  rw [Fp.addNC, hp.good.of4]
  rfl

def apsA (O : Ops) (z x y : Addr) (clob : List Reg) : Act := bin4 O.aps z x y [] [(rax, 4)] clob

theorem aps_sat {z x y : Addr} {t3 t2 t1 t0 : Reg} (hn : [t3, t2, t1, t0].Nodup) (hra : rax ∉ [t3, t2, t1, t0]) (hz : z.avoid [t3, t2, t1, t0])
    (hx : x.avoid [t3, t2, t1, t0]) (hy : y.avoid [t3, t2, t1, t0]) (iz : z.idx = none) (ix : x.idx = none) (iy : y.idx = none) :
    Sat g ra (ops (load_add_rm g t3 t2 t1 t0 x (pt rax) false ++ (sub_rm t3 t2 t1 t0 y ++ store_mr z t3 t2 t1 t0))) (apsA std z x y [t3, t2, t1, t0]) := by
  refine sat_wr4 (w := 0) rfl fun s P S hp => ?_
  have hr : s.r rax = 8 * (g.pT + 4) := hp.pre (rax, 4) List.mem_cons_self
  have := hp.tbl.pb
  refine (addp_sub_ex g hn hra hz hx hy (hp.ptr (w := 0) rfl iz le_rfl) (hp.ptr (w := 1) rfl ix le_rfl) (hp.ptr (w := 2) rfl iy le_rfl) hr (by omega)
    hp.pt1).mono ?_
  rintro t ⟨h1, h2⟩
  refine ⟨⟨_, h1, ?_⟩, h2.toX _, by simp [apsA, bin4]⟩
  show [Fp.subNC (Fp.addNC (vn 4 s.m (P 1 + 0)) (pTbl 1).val) (vn 4 s.m (P 2 + 0))] = _
  simp only [Fp.subNC, Fp.addNC, hp.good.of4, pTbl1_of, wAddNC, W4.of_val (add4_ok _ _ _), Nat.add_zero]

/-- the middle part of `sub_Fp2Dbl_mulOpt` -/
def midA (O : Ops) : Act where
  args := [.ad gp1 64, .ad gp1 0, .ad rsp 64]
  len := [8, 8, 8]
  al := []
  ins := [⟨0, 0, 8⟩, ⟨1, 0, 8⟩, ⟨2, 0, 8⟩]
  outs := [⟨0, 0, 8⟩]
  f v := [O.dSubNC (O.dSubNC (v.getD 0 0) (v.getD 1 0)) (v.getD 2 0)]
  pre := []
  post := []
  clob := [gt3, gt2, gt1, gt10, gt7, gt6, gt5, gt4]
  clobX := []
  depth := 0

theorem mid_sat : Sat g ra (ops (mulOptMid g)) (midA std) := by
  refine sat_wr8 (w := 0) rfl fun s P S hp => ?_
  have h0 := hp.args 0 _ rfl
  have h1 := hp.args 1 _ rfl
  have h2 := hp.args 2 _ rfl
  have b0 := hp.bnd 0 (by decide)
  have b2 := hp.bnd 2 (by decide)
  replace h0 : s.r gp1 + 64 = 8 * P 0 := h0
  replace h1 : s.r gp1 + 0 = 8 * P 1 := h1
  replace h2 : s.r rsp + 64 = 8 * P 2 := h2
  replace b0 : 8 * (P 0 + 8) ≤ B64 := b0
  replace b2 : 8 * (P 2 + 8) ≤ B64 := b2
  have e : P 1 + 8 = P 0 := by omega
  refine (mulOptMid_ex g (Z := P 1) (D := P 2) h1 h2 (by omega) b2).mono ?_
  rintro t ⟨h1, h2⟩
  rw [e] at h1
  refine ⟨⟨_, h1, ?_⟩, h2.toX _, by simp [midA]⟩
  show [Fp.dblSubNC (Fp.dblSubNC (vn 8 s.m (P 0 + 0)) (vn 8 s.m (P 1 + 0))) (vn 8 s.m (P 2 + 0))] = _
  have e2 : ∀ x y, (dSubNC x y).Ok := fun x y => ⟨sub4_ok _ _ _, sub4_ok _ _ _⟩
  simp only [dblSubNC_def, hp.good.of8, W8.of_val (e2 _ _), Nat.add_zero]

end

end Jit
end Verif
