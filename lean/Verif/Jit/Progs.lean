import Verif.Jit.Ops

/-! Programs of blocks and calls, and tools to check them. -/

namespace Verif
namespace Jit

open Fp Reg Lean Elab Tactic Meta

/-- `rfl`, left to the kernel -/
elab "krfl" : tactic => do
  let goal ← getMainGoal
  goal.withContext do
    let t ← instantiateMVars (← goal.getType)
    let some (ty, a, _) := t.eq? | throwError "krfl: not an equation"
    let u ← getLevel ty
    goal.assign (mkApp2 (mkConst ``Eq.refl [u]) ty a)

/-- two numbers from the list on -/
def r2 (v : List ℕ) (i : ℕ) : R2 := ⟨v.getD i 0, v.getD (i + 1) 0⟩
def r6 (v : List ℕ) (i : ℕ) : R6 := ⟨r2 v i, r2 v (i + 2), r2 v (i + 4)⟩
def r12 (v : List ℕ) (i : ℕ) : R12 := ⟨r6 v i, r6 v (i + 6)⟩
def l2 (x : R2) : List ℕ := [x.a, x.b]
def l6 (x : R6) : List ℕ := [x.a.a, x.a.b, x.b.a, x.b.b, x.c.a, x.c.b]
def l12 (x : R12) : List ℕ := l6 x.a ++ l6 x.b

/-- the elements of operand w: k numbers of n words -/
def elts (w n : ℕ) : ℕ → List Elt
  | 0 => []
  | k + 1 => elts w n k ++ [⟨w, n * k, n⟩]

section
variable (g : Cfg) (O : Ops)

/-! the blocks -/
def kMvi : Mac := .act (ops [mvi rax (pTblAt g 1)]) mviA
def kAdd (z x y : Addr) : Mac := .act (ops (in_Fp_add1 g z x y)) (add1A O z x y)
def kSub (z x y : Addr) : Mac := .act (ops (in_Fp_sub1 g z x y)) (sub1A O z x y)
def kNC (isAdd : Bool) (z x y : Addr) : Mac := .act (ops (in_Fp_op_carry g isAdd z x y false)) (ncA O isAdd z x y)
def kDAdd (z x y : Addr) : Mac := .act (ops (in_FpDbl_add1 g z x y)) (dAddA O z x y)
def kDSub (z x y : Addr) : Mac := .act (ops (sub_FpDbl_sub g z x y)) (dSubA O z x y)
def kDNC (isAdd : Bool) (z x y : Addr) : Mac :=
  .act (ops (in_Fp_op_carry g isAdd z x y false ++ in_Fp_op_carry g isAdd (z.plus 32) (x.plus 32) (y.plus 32) true)) (dncA O isAdd z x y)
def kMul4 (t0 t1 t2 t3 t4 t5 t6 t7 t8 t9 : Reg) (z x y : Addr) : Mac :=
  .act (ops (mul4x4 g z x y t9 t8 t7 t6 t5 t4 t3 t2 t1 t0)) (mul4A O z x y [t9, t8, t7, t6, t5, t4, t3, t2, t1, t0, rax, rdx])
def kMul4' (z x y : Addr) : Mac :=
  .act (ops (mul4x4' g z x y)) (mul4A O z x y [gt9, gt8, gt7, gt6, gt5, gt4, gt3, gt2, gt1, gt10, rax, rdx])
def kMul : Mac := .act (ops (Fp_mul g)) (mulA O)
def kMod : Mac := .act (ops (mont_mod g)) (modA O)
def kDiv (z x : Addr) : Mac := .act (ops (sub_Fp_divBy2 g z x)) (divA O z x)
def kTz (z x : Addr) : Mac := .act (ops (in_Fp_2z_add_3x g z x)) (tzA O z x)
def kG4 (i : ℕ) : Mac := .act (ops (in_g4 g i)) (g4A O i)
def kOpt1 (z x y : Addr) : Mac := .act (ops (in_FpDbl_subOpt1 g z x y)) (opt1A O z x y)
def kDsnc (t3 t2 t1 t0 : Reg) (z x : Addr) : Mac := .act (ops (sub_Fp2Dbl_subNC g z x t3 t2 t1 t0)) (dsncA O z x [t3, t2, t1, t0])
def kDbl1 (t3 t2 t1 t0 : Reg) (z x : Addr) : Mac :=
  .act (ops (load_rm t3 t2 t1 t0 x ++ (add_rr t3 t2 t1 t0 t3 t2 t1 t0 ++ store_mr z t3 t2 t1 t0))) (dbl1A O z x [t3, t2, t1, t0])
def kAps (t3 t2 t1 t0 : Reg) (z x y : Addr) : Mac :=
  .act (ops (load_add_rm g t3 t2 t1 t0 x (pt rax) false ++ (sub_rm t3 t2 t1 t0 y ++ store_mr z t3 t2 t1 t0))) (apsA O z x y [t3, t2, t1, t0])
def kMid : Mac := .act (ops (mulOptMid g)) (midA O)

/-- a call -/
def kCall (j : Sub) (a : Act) : Mac := .act [.call j] { a with depth := a.depth + 1 }
def o (x : Op) : Mac := .op x

/-! several blocks -/
def kAddN (n : ℕ) (z x y : Addr) : List Mac :=
  kMvi g :: (List.range n).map fun i => kAdd g O (z.plus (32 * i)) (x.plus (32 * i)) (y.plus (32 * i))
def kSubN (n : ℕ) (z x y : Addr) : List Mac :=
  kMvi g :: (List.range n).map fun i => kSub g O (z.plus (32 * i)) (x.plus (32 * i)) (y.plus (32 * i))
def kDAddN (n : ℕ) (z x y : Addr) : List Mac :=
  (List.range n).map fun i => kDAdd g O (z.plus (64 * i)) (x.plus (64 * i)) (y.plus (64 * i))
def kDSubN (n : ℕ) (z x y : Addr) : List Mac :=
  (List.range n).map fun i => kDSub g O (z.plus (64 * i)) (x.plus (64 * i)) (y.plus (64 * i))
def kSet (j : Sub) (a : Act) (z x y : Addr) : List Mac :=
  [o (.lea gp1 z), o (if x = z then mv gp2 gp1 else .lea gp2 x),
   o (if y = z then mv gp3 gp1 else if y = x then mv gp3 gp2 else .lea gp3 y), kCall j a]
def kL3 (j : Sub) (a : Act) (z x y : Addr) : List Mac := [o (.lea gp1 z), o (.lea gp2 x), o (.lea gp3 y), kCall j a]
def kL2 (j : Sub) (a : Act) (z x : Addr) : List Mac := [o (.lea gp1 z), o (.lea gp2 x), kCall j a]
end

/-! ### conditions -/

/-- a call of the routine may be a block -/
def callWf (a : Act) : Bool :=
  !hasR a.clob rsp && a.args.all (fun e => match e with | .ad q _ => !Nat.beq (Reg.idx q) 4 | .xm _ => true | .fix _ => true) &&
  a.pre.all (fun e => !Nat.beq (Reg.idx e.1) 4) && a.post.all (fun e => !Nat.beq (Reg.idx e.1) 4) &&
  a.outs.all (fun e => Nat.ble (e.w + 1) a.args.length && Nat.ble (e.o + e.n) (a.l e.w)) &&
  a.ins.all (fun e => Nat.ble (e.w + 1) a.args.length && Nat.ble (e.o + e.n) (a.l e.w))

section
variable {g : Cfg} {ra : Sub → ℕ → ℕ}

theorem hasR_of {l : List Reg} {q : Reg} (h : q ∈ l) : hasR l q = true := by
  unfold hasR
  rw [List.any_eq_true]
  exact ⟨q, h, Nat.beq_refl _⟩

theorem ne4 {q : Reg} (h : (!Nat.beq (Reg.idx q) 4) = true) : q ≠ rsp := by rintro rfl; cases h

theorem bnds {a : Act} {l : List Elt} (h : l.all (fun e => Nat.ble (e.w + 1) a.args.length && Nat.ble (e.o + e.n) (a.l e.w)) = true) :
    ∀ e ∈ l, e.w < a.args.length ∧ e.o + e.n ≤ a.l e.w := by
  intro e he
  have := List.all_eq_true.1 h e he
  rw [Bool.and_eq_true] at this
  exact ⟨Nat.le_of_ble_eq_true this.1, Nat.le_of_ble_eq_true this.2⟩

theorem call_ok {j : Sub} {a : Act} (h : SatFn g ra j a) (hw : callWf a = true) : (kCall j a).Ok g ra := by
  simp only [callWf, Bool.and_eq_true] at hw
  obtain ⟨⟨⟨⟨⟨h1, h2⟩, h3⟩, h4⟩, h5⟩, h6⟩ := hw
  refine sat_call g ra h ?_ ?_ ?_ ?_ (bnds h5) (bnds h6)
  · intro hm
    rw [hasR_of hm] at h1
    cases h1
  · rintro e he d rfl
    have := List.all_eq_true.1 h2 _ he
    cases this
  · exact fun e he => ne4 (List.all_eq_true.1 h3 e he)
  · exact fun e he => ne4 (List.all_eq_true.1 h4 e he)

theorem op_ok {x : Op} : (o x).Ok g ra := trivial

/-- A routine with successful runs does what its `Act` says. -/
theorem fn_of_run {j : Sub} {a : Act} {prog : List Mac} (hw : a.wf = true) (hrun : ∀ vs, allRun a 0 prog vs = allSpec a vs)
    (hprog : ∀ m ∈ prog, m.Ok g ra) (hc : code g j = prog.flatMap Mac.code ++ [.ret]) : SatFn g ra j a :=
  fn_of_sat (sat_of_run hw hrun hprog rfl) hc

/-- the conditions on a routine with a frame -/
def frameWf (a : Act) : Bool :=
  a.wf && a.args.all bodyArg && a.pre.isEmpty && a.post.isEmpty && !hasR a.clob rsp

/-- So does a routine with a frame. -/
theorem frame_of_run {j : Sub} {gtn nq : ℕ} {a : Act} {prog : List Mac} (h4 : 4 ≤ gtn) (hw : frameWf a = true)
    (hrun : ∀ vs, allRun a nq prog vs = allSpec a vs) (hprog : ∀ m ∈ prog, m.Ok g ra)
    (hc : code g j = frame gtn nq (prog.flatMap Mac.code)) : SatFn g ra j (a.frame gtn nq) := by
  simp only [frameWf, Bool.and_eq_true] at hw
  obtain ⟨⟨⟨⟨h1, h2⟩, h3⟩, h5⟩, h6⟩ := hw
  have hh := h1
  simp only [Act.wf, Bool.and_eq_true] at hh
  obtain ⟨⟨⟨⟨⟨⟨-, -⟩, h7⟩, h8⟩, -⟩, -⟩, -⟩ := hh
  refine frame_fn h4 hc (fun k s P S hp => body_of_run h1 hprog (fun E hE vs => allRun_iff (hrun vs) E hE) hp) h2 (List.isEmpty_iff.1 h3)
    (List.isEmpty_iff.1 h5) ?_ (bnds h7) (bnds h8)
  intro hm
  rw [hasR_of hm] at h6
  cases h6

/-! ### code -/

theorem ops_nil : ops [] = [] := rfl
theorem ops_cons (x : Op) (l : List Op) : ops (x :: l) = .op x :: ops l := rfl
theorem ops_append (l k : List Op) : ops (l ++ k) = ops l ++ ops k := List.map_append
theorem pt_plus (q : Reg) (d n : ℕ) : (pt q d).plus n = pt q (d + n) := rfl
theorem code_act (c : Code) (a : Act) : (Mac.act c a).code = c := rfl
theorem code_op (x : Op) : (o x).code = [.op x] := rfl
theorem code_call (j : Sub) (a : Act) : (kCall j a).code = [.call j] := rfl

theorem ops_flatMap {α : Type} (l : List α) (f : α → List Op) : ops (l.flatMap f) = l.flatMap fun i => ops (f i) := by
  induction l with
  | nil => rfl
  | cons a l ih => rw [List.flatMap_cons, List.flatMap_cons, ops_append, ih]

theorem flatMap_map {α β γ : Type} (l : List α) (f : α → β) (h : β → List γ) : (l.map f).flatMap h = l.flatMap fun i => h (f i) := by
  rw [List.flatMap_map]

variable {O : Ops}
theorem code_kAddN (n : ℕ) (z x y : Addr) : (kAddN g O n z x y).flatMap Mac.code = ops (in_Fp_add g n z x y) := by
  unfold kAddN in_Fp_add
  rw [List.flatMap_cons, flatMap_map, ops_cons, ops_flatMap]
  rfl
theorem code_kSubN (n : ℕ) (z x y : Addr) : (kSubN g O n z x y).flatMap Mac.code = ops (in_Fp_sub g n z x y) := by
  unfold kSubN in_Fp_sub
  rw [List.flatMap_cons, flatMap_map, ops_cons, ops_flatMap]
  rfl
theorem code_kDAddN (n : ℕ) (z x y : Addr) : (kDAddN g O n z x y).flatMap Mac.code = ops (in_FpDbl_add g n z x y) := by
  unfold kDAddN in_FpDbl_add
  rw [flatMap_map, ops_flatMap]
  rfl
theorem code_kDSubN (n : ℕ) (z x y : Addr) : (kDSubN g O n z x y).flatMap Mac.code = ops (in_FpDbl_sub g n z x y) := by
  unfold kDSubN in_FpDbl_sub
  rw [flatMap_map, ops_flatMap]
  rfl
theorem code_kSet (j : Sub) (a : Act) (z x y : Addr) : (kSet j a z x y).flatMap Mac.code = setCall j z x y := rfl
theorem code_kL3 (j : Sub) (a : Act) (z x y : Addr) : (kL3 j a z x y).flatMap Mac.code = lea3 j z x y := rfl
theorem code_kL2 (j : Sub) (a : Act) (z x : Addr) : (kL2 j a z x).flatMap Mac.code = lea2 j z x := rfl
end

/-- brings code to a normal form -/
syntax "codes" "[" Lean.Parser.Tactic.simpLemma,* "]" : tactic
macro_rules
  | `(tactic| codes [$l,*]) => `(tactic| simp only [code, List.flatMap_append, List.flatMap_cons, List.flatMap_nil, code_kAddN, code_kSubN, code_kDAddN,
      code_kDSubN, code_kSet, code_kL3, code_kL2, code_op, code_call, code_act, kMvi, kAdd, kSub, kNC, kDAdd, kDSub, kDNC, kMul4, kMul4', kMul, kMod, kDiv,
      kTz, kG4, kOpt1, kDsnc, kDbl1, kAps, kMid, ops_append, ops_cons, ops_nil, pt_plus, List.append_assoc, List.cons_append, List.nil_append, List.append_nil,
      Nat.zero_add, Nat.reduceAdd, in_Fp_addNC, in_Fp_subNC, in_Fp_adcNC, in_Fp_sbbNC, in_Fp2_add, in_Fp2_sub, in_Fp2_addNC, in_FpDbl_addNC,
      in_FpDbl_subNC, in_FpDbl_sub1, $l,*])

/-! ### the blocks are correct -/

section
variable {g : Cfg} {ra : Sub → ℕ → ℕ}

theorem ok_nil : ∀ m ∈ ([] : List Mac), m.Ok g ra := by simp
theorem ok_cons {m : Mac} {l : List Mac} (h : m.Ok g ra) (hl : ∀ m ∈ l, m.Ok g ra) : ∀ m' ∈ m :: l, m'.Ok g ra := by
  rintro m' hm
  rw [List.mem_cons] at hm
  rcases hm with rfl | hm
  · exact h
  · exact hl m' hm
theorem ok_append {k l : List Mac} (h : ∀ m ∈ k, m.Ok g ra) (hl : ∀ m ∈ l, m.Ok g ra) : ∀ m ∈ k ++ l, m.Ok g ra := by
  intro m hm
  rw [List.mem_append] at hm
  exact hm.elim (h m) (hl m)

theorem ok_mvi : (kMvi g).Ok g ra := mvi_sat
theorem ok_mul : (kMul g std).Ok g ra := mul_sat
theorem ok_mod : (kMod g std).Ok g ra := mod_sat
theorem ok_g4 (i : ℕ) : (kG4 g std i).Ok g ra := g4_sat i
theorem ok_mid : (kMid g std).Ok g ra := mid_sat

/-- the registers are not in l -/
def nots (l : List Reg) (q : List Reg) : Bool := q.all fun p => !hasR l p
theorem nots_iff {l q : List Reg} (h : nots l q = true) : ∀ p ∈ q, p ∉ l := by
  intro p hp hm
  have := List.all_eq_true.1 h p hp
  rw [hasR_of hm] at this
  cases this
theorem av {l : List Reg} {q : List Reg} (h : nots l q = true) {p : Reg} {d : ℕ} (hp : p ∈ q) : (pt p d).avoid l := ⟨nots_iff h p hp, fun i hi => by cases hi⟩

variable {z x y : Reg} {dz dx dy : ℕ} {t0 t1 t2 t3 t4 t5 t6 t7 t8 t9 : Reg}

theorem ok_add (h : nots addRegs [z, x, y] = true) : (kAdd g std (pt z dz) (pt x dx) (pt y dy)).Ok g ra :=
  add1_sat (av h (by simp)) (av h (by simp)) (av h (by simp)) rfl rfl rfl
theorem ok_sub (h : nots addRegs [z, x, y] = true) : (kSub g std (pt z dz) (pt x dx) (pt y dy)).Ok g ra :=
  sub1_sat (av h (by simp)) (av h (by simp)) (av h (by simp)) rfl rfl rfl
theorem ok_nc {b : Bool} (h : nots [gt4, gt3, gt2, gt1] [z, x, y] = true) : (kNC g std b (pt z dz) (pt x dx) (pt y dy)).Ok g ra :=
  nc_sat b (av h (by simp)) (av h (by simp)) (av h (by simp)) rfl rfl rfl
theorem ok_dadd (h : nots (rax :: addRegs) [z, x, y] = true) : (kDAdd g std (pt z dz) (pt x dx) (pt y dy)).Ok g ra :=
  dAdd_sat (av h (by simp)) (av h (by simp)) (av h (by simp)) rfl rfl rfl
theorem ok_dsub (h : nots (rax :: addRegs) [z, x, y] = true) : (kDSub g std (pt z dz) (pt x dx) (pt y dy)).Ok g ra :=
  dSub_sat (av h (by simp)) (av h (by simp)) (av h (by simp)) rfl rfl rfl
theorem ok_dnc {b : Bool} (h : nots [gt4, gt3, gt2, gt1] [z, x, y] = true) : (kDNC g std b (pt z dz) (pt x dx) (pt y dy)).Ok g ra :=
  dnc_sat b (av h (by simp)) (av h (by simp)) (av h (by simp)) rfl rfl rfl
theorem ok_mul4 (hn : [t9, t8, t7, t6, t5, t4, t3, t2, t1, t0, rax, rdx].Nodup)
    (h : nots [t9, t8, t7, t6, t5, t4, t3, t2, t1, t0, rax, rdx] [z, x, y] = true) :
    (kMul4 g std t0 t1 t2 t3 t4 t5 t6 t7 t8 t9 (pt z dz) (pt x dx) (pt y dy)).Ok g ra :=
  mul4_sat hn (av h (by simp)) (av h (by simp)) (av h (by simp)) rfl rfl rfl
theorem ok_mul4' (h : nots [gt9, gt8, gt7, gt6, gt5, gt4, gt3, gt2, gt1, gt10, rax, rdx] [z, x, y] = true) :
    (kMul4' g std (pt z dz) (pt x dx) (pt y dy)).Ok g ra :=
  mul4_sat (by decide) (av h (by simp)) (av h (by simp)) (av h (by simp)) rfl rfl rfl
theorem ok_div (h : nots [gt4, gt3, gt2, gt1, rdx, gt5] [z, x] = true) : (kDiv g std (pt z dz) (pt x dx)).Ok g ra :=
  div_sat (av h (by simp)) (av h (by simp)) rfl rfl
theorem ok_tz (h : nots [gt4, gt3, gt2, gt1, gp3, gt5, gt6, gt7, rax, rdx] [z, x] = true) : (kTz g std (pt z dz) (pt x dx)).Ok g ra :=
  tz_sat (av h (by simp)) (av h (by simp)) rfl rfl
theorem ok_opt1 (h : nots (rax :: addRegs) [z, x, y] = true) : (kOpt1 g std (pt z dz) (pt x dx) (pt y dy)).Ok g ra :=
  opt1_sat (av h (by simp)) (av h (by simp)) (av h (by simp)) rfl rfl rfl
theorem ok_dsnc (hn : [t3, t2, t1, t0].Nodup) (h : nots [t3, t2, t1, t0] [z, x] = true) : (kDsnc g std t3 t2 t1 t0 (pt z dz) (pt x dx)).Ok g ra :=
  dsnc_sat hn (av h (by simp)) (av h (by simp)) rfl rfl
theorem ok_dbl1 (hn : [t3, t2, t1, t0].Nodup) (h : nots [t3, t2, t1, t0] [z, x] = true) : (kDbl1 std t3 t2 t1 t0 (pt z dz) (pt x dx)).Ok g ra :=
  dbl1_sat hn (av h (by simp)) (av h (by simp)) rfl rfl
theorem ok_aps (hn : [t3, t2, t1, t0].Nodup) (h : nots [t3, t2, t1, t0] [rax, z, x, y] = true) :
    (kAps g std t3 t2 t1 t0 (pt z dz) (pt x dx) (pt y dy)).Ok g ra :=
  aps_sat hn (nots_iff h _ (by simp)) (av h (by simp)) (av h (by simp)) (av h (by simp)) rfl rfl rfl

theorem ok_map {α : Type} {l : List α} {f : α → Mac} (h : ∀ i, (f i).Ok g ra) : ∀ m ∈ l.map f, m.Ok g ra := by
  intro m hm
  rw [List.mem_map] at hm
  obtain ⟨i, -, rfl⟩ := hm
  exact h i

theorem ok_addN {n : ℕ} (h : nots addRegs [z, x, y] = true) : ∀ m ∈ kAddN g std n (pt z dz) (pt x dx) (pt y dy), m.Ok g ra :=
  ok_cons ok_mvi (ok_map fun _ => ok_add h)
theorem ok_subN {n : ℕ} (h : nots addRegs [z, x, y] = true) : ∀ m ∈ kSubN g std n (pt z dz) (pt x dx) (pt y dy), m.Ok g ra :=
  ok_cons ok_mvi (ok_map fun _ => ok_sub h)
theorem ok_daddN {n : ℕ} (h : nots (rax :: addRegs) [z, x, y] = true) : ∀ m ∈ kDAddN g std n (pt z dz) (pt x dx) (pt y dy), m.Ok g ra :=
  ok_map fun _ => ok_dadd h
theorem ok_dsubN {n : ℕ} (h : nots (rax :: addRegs) [z, x, y] = true) : ∀ m ∈ kDSubN g std n (pt z dz) (pt x dx) (pt y dy), m.Ok g ra :=
  ok_map fun _ => ok_dsub h
theorem ok_set {j : Sub} {a : Act} {z x y : Addr} (h : (kCall j a).Ok g ra) : ∀ m ∈ kSet j a z x y, m.Ok g ra :=
  ok_cons op_ok (ok_cons op_ok (ok_cons op_ok (ok_cons h ok_nil)))
theorem ok_L3 {j : Sub} {a : Act} {z x y : Addr} (h : (kCall j a).Ok g ra) : ∀ m ∈ kL3 j a z x y, m.Ok g ra :=
  ok_cons op_ok (ok_cons op_ok (ok_cons op_ok (ok_cons h ok_nil)))
theorem ok_L2 {j : Sub} {a : Act} {z x : Addr} (h : (kCall j a).Ok g ra) : ∀ m ∈ kL2 j a z x, m.Ok g ra :=
  ok_cons op_ok (ok_cons op_ok (ok_cons h ok_nil))
end

/-- the blocks of a program are correct; the hypotheses are those of the calls -/
syntax "oks" "[" term,* "]" : tactic
macro_rules
  | `(tactic| oks [$l,*]) => do
    let alts ← l.getElems.mapM fun t => `(tactic| with_reducible exact $t)
    `(tactic| repeat' with_reducible first
      $[| $alts:tactic]*
      | exact ok_nil | exact op_ok | exact ok_mvi | exact ok_mul | exact ok_mod | exact ok_g4 _ | exact ok_mid
      | refine ok_add ?_ | refine ok_sub ?_ | refine ok_nc ?_ | refine ok_dadd ?_ | refine ok_dsub ?_ | refine ok_dnc ?_
      | refine ok_mul4 ?_ ?_ | refine ok_mul4' ?_ | refine ok_div ?_ | refine ok_tz ?_ | refine ok_opt1 ?_
      | refine ok_dsnc ?_ ?_ | refine ok_dbl1 ?_ ?_ | refine ok_aps ?_ ?_
      | refine ok_addN ?_ | refine ok_subN ?_ | refine ok_daddN ?_ | refine ok_dsubN ?_
      | refine ok_set ?_ | refine ok_L3 ?_ | refine ok_L2 ?_
      | refine ok_append ?_ ?_ | refine ok_cons ?_ ?_
      | decide)

end Jit
end Verif
