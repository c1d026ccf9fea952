import Verif.Jit.Entries

/-! `CompressSquareN`: repeated squaring of a compressed element, a loop on a counter in the frame. -/

namespace Verif
namespace Jit

open Fp Reg

section
variable (O : Ops)

/-- g2, g3, g4, g5 in the 48 words of an element of Fp12 (bn.h:2128-2142) -/
def compElts (w : ℕ) : List Elt := [⟨w, 24, 4⟩, ⟨w, 28, 4⟩, ⟨w, 16, 4⟩, ⟨w, 20, 4⟩, ⟨w, 8, 4⟩, ⟨w, 12, 4⟩, ⟨w, 40, 4⟩, ⟨w, 44, 4⟩]
def rC (v : List ℕ) : RC := ⟨r2 v 0, r2 v 2, r2 v 4, r2 v 6⟩
def lC (z : RC) : List ℕ := [z.g2.a, z.g2.b, z.g3.a, z.g3.b, z.g4.a, z.g4.b, z.g5.a, z.g5.b]

/-- the loop, run n times -/
def A_Comp (n : ℕ) : Act where
  args := [.xm 3]
  len := [48]
  al := []
  ins := compElts 0
  outs := compElts 0
  f := fun v => lC ((tCompSquare O)^[n] (rC v))
  pre := []
  post := []
  clob := gts 10
  clobX := [0, 1, 2, 4, 5]
  depth := 10

/-- the routine: the word at rdi is the address of z -/
def B_Comp (n Z : ℕ) : Act where
  args := [.ad gp1 0, .fix (8 * Z)]
  len := [1, 48]
  al := []
  ins := compElts 1
  outs := compElts 1
  f := fun v => lC ((tCompSquare O)^[n] (rC v))
  pre := []
  post := []
  clob := gts 10
  clobX := allX
  depth := 10

def E_Comp (g : Cfg) : List Mac :=
  [o (.ofX gt10 3)] ++ kL2 .pFp2DblSquare (A_DblSquare O) (pt rsp 192) (pt gt10 64) ++
  [o (.lea gp1 (pt rsp 320)), o (.ofX gp2 3), o (ori .add gp2 320)] ++ [kCall .pFp2DblSquare (A_DblSquare O)] ++
  kMulXi2 g O (pt rsp 448) (pt rsp 320) ++ kDbl2 .pFpDblAdd (A_DblAdd O) (pt rsp 448) (pt rsp 448) (pt rsp 192) ++
  [o (.lea gp1 (pt rsp 128)), o (.lea gp2 (pt rsp 448))] ++ kMod2 O ++
  [o (.ofX gt10 3)] ++ kSet .pFp2Add (A_Fp2Add O) (pt rsp) (pt gt10 64) (pt gt10 320) ++
  kL2 .pFp2DblSquare (A_DblSquare O) (pt rsp 448) (pt rsp) ++
  [o (.ofX gt10 3)] ++ kDAddN g O 2 (pt rsp 192) (pt rsp 192) (pt rsp 320) ++
  kDbl2 .pFpDblSub (A_DblSub O) (pt rsp 448) (pt rsp 448) (pt rsp 192) ++
  [o (.lea gp1 (pt rsp)), o (.lea gp2 (pt rsp 448))] ++ kMod2 O ++
  [o (.ofX gt10 3)] ++ kSet .pFp2Add (A_Fp2Add O) (pt rsp 64) (pt gt10 192) (pt gt10 128) ++
  kL2 .pFp2DblSquare (A_DblSquare O) (pt rsp 576) (pt rsp 64) ++
  [o (.ofX gt10 3)] ++ kL2 .pFp2DblSquare (A_DblSquare O) (pt rsp 448) (pt gt10 192) ++
  kXi g O (pt rsp 64) (pt rsp) ++
  kL2 .pFp2_2zAdd3x (A_2z3x O) (pt gt10 192) (pt rsp 64) ++
  kSet .pFp2Sub (A_Fp2Sub O) (pt rsp 64) (pt rsp 128) (pt gt10 128) ++ kSet .pFp2Add (A_Fp2Add O) (pt rsp 64) (pt rsp 64) (pt rsp 64) ++
  kL2 .pFp2DblSquare (A_DblSquare O) (pt rsp 320) (pt gt10 128) ++
  [o (.ofX gt10 3)] ++ kSet .pFp2Add (A_Fp2Add O) (pt gt10 128) (pt rsp 64) (pt rsp 128) ++
  kMulXi2 g O (pt rsp 192) (pt rsp 320) ++ kDAddN g O 2 (pt rsp 192) (pt rsp 192) (pt rsp 448) ++
  [o (.lea gp1 (pt rsp)), o (.lea gp2 (pt rsp 192))] ++ kMod2 O ++
  [o (.ofX gt10 3)] ++ [kG4 g O 0, kG4 g O 1] ++
  kDAddNCN O 2 (pt rsp 448) (pt rsp 448) (pt rsp 320) ++ kDbl2 .pFpDblSub (A_DblSub O) (pt rsp 576) (pt rsp 576) (pt rsp 448) ++
  [o (.lea gp1 (pt rsp)), o (.lea gp2 (pt rsp 576))] ++ kMod2 O ++
  [o (.ofX gt10 3)] ++ kL2 .pFp2_2zAdd3x (A_2z3x O) (pt gt10 320) (pt rsp)
end

section
variable (g : Cfg) (ra : Sub → ℕ → ℕ)
set_option maxRecDepth 100000

theorem run_Comp' (O : Ops) (vs : List ℕ) : allRun (A_Comp O 1) 88 (E_Comp O g) vs = allSpec (A_Comp O 1) vs := by krfl
theorem run_Comp_reg (O : Ops) (vs : List ℕ) :
    ((runM (ctxOf (A_Comp O 1) [] 88) (E_Comp O g) (initA (A_Comp O 1) [] vs)).bind fun A => lk A.r (Reg.idx gt10)) = some (4, 0) := by krfl
theorem code_Comp (O : Ops) : (E_Comp O g).flatMap Mac.code = .op (.ofX gt10 3) :: compress_body g := by kcode g
theorem ok_Comp : ∀ m ∈ E_Comp std g, m.Ok g ra := by
  unfold E_Comp
  oks [ok_DAddNCN (ok_DblAddNC g ra), ok_Dbl2 (ok_DblAdd g ra), ok_Dbl2 (ok_DblSub g ra), ok_MulXi2, ok_Mod2, ok_xi (by decide), ok_Fp2Add g ra,
    ok_Fp2Sub g ra, ok_DblMod g ra, ok_DblSquare g ra, ok_2z3x g ra]

variable {g ra} {P : ℕ → ℕ} {S : ℕ} {s : St}

/-- an instruction that does not change the state may be left out -/
theorem Trip.strip {k : Sub} {x : Op} {c : Code} {Q : St → Prop} (hx : doOp s x = .ok s) (h : Trip (code g) ra k (.op x :: c) s Q) :
    Trip (code g) ra k c s Q := by
  intro l
  obtain ⟨t, e, q⟩ := h l
  refine ⟨t, fun fs => ?_, q⟩
  rcases Relation.ReflTransGen.cases_head (e fs) with h | ⟨d, h1, h2⟩
  · have := congrArg (fun c => c.l.length) h
    simp at this
    omega
  · have h3 : step (code g) ra ⟨k, .op x :: (c ++ l), fs, s⟩ = .ok ⟨k, c ++ l, fs, s⟩ := by
      show (doOp s x >>= _) = _
      rw [hx]; rfl
    rw [List.cons_append] at h1
    rw [h3] at h1
    cases h1
    exact h2

/-- one pass -/
theorem comp_pass {k : Sub} (hp : Pre g (A_Comp std 1) 88 P S s) (hr : s.r gt10 = 8 * P 0) :
    Trip (code g) ra k (compress_body g) s fun t => Good t ∧ Post g (A_Comp std 1) 88 P S s t ∧ t.r gt10 = 8 * P 0 := by
  have hx : s.x 3 = 8 * P 0 := hp.args 0 _ rfl
  refine (Trip.strip (x := .ofX gt10 3) ?_ ?_).good hp.good
  · show Res.ok (setR s gt10 (s.x 3)) = _
    rw [hx, ← hr]
    unfold setR
    rw [Function.update_eq_self]
  · have := body_of_run' (ra := ra) (k := k) (prog := E_Comp std g) rfl (ok_Comp g ra) (fun E hE vs => allRun_iff (run_Comp' g std vs) E hE) hp
    rw [code_Comp] at this
    refine this.mono fun t ht => ⟨ht.1, ?_⟩
    rw [ht.2 gt10 (4, 0) (run_Comp_reg g std _)]
    rfl

theorem rC_lC (z : RC) : rC (lC z) = z := rfl

def compInp (P : ℕ → ℕ) (m : ℕ → ℕ) : List ℕ := (compElts 0).map fun e => vn e.n m (P e.w + e.o)
theorem inp_Comp (O : Ops) (n : ℕ) (m : ℕ → ℕ) : (A_Comp O n).inp P m = compInp P m := rfl
theorem f_Comp (O : Ops) (n : ℕ) (v : List ℕ) : (A_Comp O n).f v = lC ((tCompSquare O)^[n] (rC v)) := rfl

theorem Post.compInp {n loc : ℕ} {t : St} (h : Post g (A_Comp std n) loc P S s t) :
    (A_Comp std n).inp P t.m = lC ((tCompSquare std)^[n] (rC ((A_Comp std n).inp P s.m))) := by
  have h := h.val
  replace h : ∀ p ∈ (compElts 0).zip (lC ((tCompSquare std)^[n] (rC ((A_Comp std n).inp P s.m)))), vn p.1.n t.m (P p.1.w + p.1.o) = p.2 := h
  generalize (tCompSquare std)^[n] (rC ((A_Comp std n).inp P s.m)) = z at h ⊢
  simp only [compElts, lC, List.zip_cons_cons, List.zip_nil_right, List.forall_mem_cons] at h
  obtain ⟨h0, h1, h2, h3, h4, h5, h6, h7, -⟩ := h
  show [vn 4 t.m (P 0 + 24), vn 4 t.m (P 0 + 28), vn 4 t.m (P 0 + 16), vn 4 t.m (P 0 + 20), vn 4 t.m (P 0 + 8), vn 4 t.m (P 0 + 12),
    vn 4 t.m (P 0 + 40), vn 4 t.m (P 0 + 44)] = _
  rw [h0, h1, h2, h3, h4, h5, h6, h7]
  rfl

/-- one pass and the counter -/
theorem comp_iter {k : Sub} {l : Code} (hp : Pre g (A_Comp std 1) 89 P S s) (hr : s.r gt10 = 8 * P 0) :
    At (code g) ra k (compress_body g ++ (ops [.alum .sub (pt rsp 704) (.i 1)] ++ l)) l s fun u =>
      Pre g (A_Comp std 1) 89 P S u ∧ u.r gt10 = 8 * P 0 ∧ u.m (S + 88) = (s.m (S + 88) + (B64 - 1)) % B64 ∧
      u.zf = some (u.m (S + 88) == 0) ∧ Post g (A_Comp std 1) 89 P S s u := by
  have hp' : Pre g (A_Comp std 1) 88 P S s := hp.less (by omega)
  have hdep : 10 ≤ S := hp.dep
  have htop : 8 * (S + 89) < B64 := hp.top
  have hstk : Dis (S - 10) (10 + 89) (P 0) 48 := hp.stk 0 (by decide)
  have hstk' := hstk.sep (by omega) (by omega)
  obtain ⟨o1, o2, o3⟩ := hp.outT ⟨0, 24, 4⟩ List.mem_cons_self
  replace o1 := Dis.sep (show Dis (P 0) 48 g.pT 40 from o1) (by omega) (by omega)
  replace o2 := Dis.sep (show Dis (P 0) 48 g.hT 8 from o2) (by omega) (by omega)
  replace o3 := Dis.sep (show Dis (P 0) 48 g.nT 32 from o3) (by omega) (by omega)
  have s1 := Dis.sep (show Dis (S - 10) (10 + 89) g.pT 40 from hp.stp) (by omega) (by omega)
  have s2 := Dis.sep (show Dis (S - 10) (10 + 89) g.hT 8 from hp.sth) (by omega) (by omega)
  have s3 := Dis.sep (show Dis (S - 10) (10 + 89) g.nT 32 from hp.stn) (by omega) (by omega)
  refine At.trans ((comp_pass hp' hr).at _) ?_
  rintro t ⟨gt, ht, hr'⟩
  have hsp : t.r rsp = 8 * S := (ht.reg rsp (by decide)).trans hp.sp
  have hfr : ∀ i, (i < P 0 ∨ P 0 + 48 ≤ i) → (i < S - 10 ∨ S + 88 ≤ i) → t.m i = s.m i := by
    intro i h1 h2
    refine ht.fr i (fun e he => ?_) (by show ¬(S - 10 ≤ i ∧ i < S + 88); omega)
    have : e.w = 0 ∧ e.o + e.n ≤ 48 := by revert he; revert e; decide
    rw [this.1]; omega
  have hc : t.m (S + 88) = s.m (S + 88) := hfr _ (by omega) (by omega)
  have hea : ea t.r (pt rsp 704) = 8 * (S + 88) := by
    show (t.r rsp + 0 + 704) % B64 = _
    rw [hsp, Nat.mod_eq_of_lt (by omega)]; omega
  have hsb : (sbb (s.m (S + 88)) 1 0).1 = (s.m (S + 88) + (B64 - 1)) % B64 := by
    have := hp.good.m (S + 88)
    unfold sbb
    omega
  let u : St := { t with m := Function.update t.m (S + 88) (sbb (s.m (S + 88)) 1 0).1, cf := some (sbb (s.m (S + 88)) 1 0).2, zf := some ((sbb (s.m (S + 88)) 1 0).1 == 0) }
  have hu : doOp t (.alum .sub (pt rsp 704) (.i 1)) = .ok u := by
    simp only [doOp, src, hea, load, store]
    simp [alu, u, ← hc]
  have hum : u.m (S + 88) = (sbb (s.m (S + 88)) 1 0).1 := by simp [u]
  have hgu : Good u := doOp_good gt hu
  refine At.trans (At.ops (Q := fun v => v = u) (.cons hu (.nil rfl))) ?_
  rintro _ rfl
  have hfu : ∀ i, (i < P 0 ∨ P 0 + 48 ≤ i) → (i < S - 10 ∨ S + 89 ≤ i) → u.m i = s.m i := by
    intro i h1 h2
    rw [← hfr i h1 (by omega)]
    simp [u, Function.update_of_ne (show i ≠ S + 88 by omega)]
  refine At.refl ⟨?_, hr', ?_, ?_, ?_⟩
  · refine ⟨hgu, hp.tbl.congr (fun i _ _ => hfu i (by omega) (by omega)) (fun i _ _ => hfu i (by omega) (by omega)) (fun i _ _ => hfu i (by omega) (by omega)),
      ?_, hp.bnd, hp.al, (fun e he => nomatch he), hsp, hp.dep, hp.top, hp.stk, hp.stp, hp.sth, hp.stn, hp.outT⟩
    intro w e he
    rcases w with _ | w
    · cases he
      show t.x 3 = 8 * P 0
      rw [ht.xmm 3 (by decide)]
      exact hp.args 0 _ rfl
    · cases he
  · rw [hum, hsb]
  · rw [hum]
  · refine ⟨?_, ?_, ht.reg, ht.xmm, ht.post⟩
    · intro i h1 h2
      rw [← ht.fr i h1 (by omega)]
      simp [u, Function.update_of_ne (show i ≠ S + 88 by omega)]
    · intro p hm
      have h1 := ht.val p hm
      have h2 : p.1.w = 0 ∧ p.1.o + p.1.n ≤ 48 := by
        have := (List.of_mem_zip hm).1
        revert this; generalize p.1 = e; revert e; decide
      rw [← h1]
      refine vn_congr fun i a b => ?_
      rw [h2.1] at a b
      simp [u, Function.update_of_ne (show i ≠ S + 88 by omega)]
theorem iter_lC (F : RC → RC) (n : ℕ) {v w : List ℕ} (h : w = lC (F^[1] (rC v))) : lC (F^[n] (rC w)) = lC (F^[n + 1] (rC v)) := by
  rw [h, rC_lC]; rfl

theorem Post.comp {n loc : ℕ} {t u : St} (h : Post g (A_Comp std 1) loc P S s t) (h' : Post g (A_Comp std n) loc P S t u) :
    Post g (A_Comp std (n + 1)) loc P S s u where
  fr i h1 h2 := (h'.fr i h1 h2).trans (h.fr i h1 h2)
  val := by
    have e : (A_Comp std n).f ((A_Comp std n).inp P t.m) = (A_Comp std (n + 1)).f ((A_Comp std (n + 1)).inp P s.m) :=
by
      have := h.compInp
      rw [inp_Comp, inp_Comp] at this
      rw [inp_Comp, inp_Comp, f_Comp, f_Comp]
      exact iter_lC _ n this
    have := h'.val
    rw [e] at this
    exact this
  reg q hq := (h'.reg q hq).trans (h.reg q hq)
  xmm i hi := (h'.xmm i hi).trans (h.xmm i hi)
  post e he := nomatch he

theorem comp_loop {k : Sub} {l : Code}
    (ht : target 0 (code g k) = .ok (compress_body g ++ (ops [.alum .sub (pt rsp 704) (.i 1)] ++ (.jcc .nz 0 :: l)))) (n : ℕ) :
    ∀ s, n + 1 ≤ B64 → Pre g (A_Comp std 1) 89 P S s → s.r gt10 = 8 * P 0 → s.m (S + 88) = (n + 1) % B64 →
    At (code g) ra k (compress_body g ++ (ops [.alum .sub (pt rsp 704) (.i 1)] ++ (.jcc .nz 0 :: l))) l s (Post g (A_Comp std (n + 1)) 89 P S s) := by
  induction n with
  | zero =>
    intro s _ hp hr hc
    refine At.trans (comp_iter hp hr) ?_
    rintro u ⟨-, -, h1, h2, h3⟩
    rw [h1, hc] at h2
    exact At.pass (by simp [holds, h2, flag]) (At.refl h3)
  | succ n ih =>
    intro s hn hp hr hc
    refine At.trans (comp_iter hp hr) ?_
    rintro u ⟨h0, hr', h1, h2, h3⟩
    have h4 : u.m (S + 88) = (n + 1) % B64 := by rw [h1, hc]; omega
    refine At.jcc ?_ ht ?_
    · have : u.m (S + 88) ≠ 0 := by rw [h4]; omega
      simp [holds, h2, flag, this]
    · exact (ih u (by omega) h0 hr' h4).mono fun v hv => h3.comp hv

theorem comp_elts : ∀ e ∈ compElts 1, e.w < 2 ∧ e.o + e.n ≤ ([1, 48] : List ℕ).getD e.w 0 := by decide

/-- The loop of `CompressSquareN`: n passes, where the counter word is n, or 0 for 2^64. -/
theorem en_Comp {n Z : ℕ} (h1 : 1 ≤ n) (h2 : n ≤ B64) (hp : Pre g ((B_Comp std n Z).frame 10 89) 1 P S s) (hz : s.m (P 0) = 8 * Z) (hn : s.r gp2 = n % B64) :
    Fn (code g) ra .CompressSquareN s (Post g ((B_Comp std n Z).frame 10 89) 0 P S s) := by
  refine frame_at (a := B_Comp std n Z) (by decide) rfl hp (fun t hq hr hm => ?_) rfl rfl rfl (show rsp ∉ gts 10 by decide) comp_elts comp_elts
  have hst : Dis (S - (10 + 95)) (10 + 95 + 1) (P 0) 1 := hp.stk 0 (show 0 < 2 by omega)
  have hst := hst.sep (by omega) (by omega)
  have hdep : 10 + 95 ≤ S := hp.dep
  have hz' : t.m (P 0) = 8 * Z := by rw [hm _ (by omega)]; exact hz
  have hP : 8 * Z = 8 * P 1 := hq.args 1 _ rfl
  have hn' : t.r gp2 = n % B64 := by rw [hr gp2 (by decide) (by decide)]; exact hn
  have a0 : t.r gp1 + 0 = 8 * P 0 := hq.args 0 _ rfl
  have b0 : 8 * (P 0 + 1) ≤ B64 := hq.bnd 0 (show 0 < 2 by omega)
  have b1 : 8 * (P 1 + 48) ≤ B64 := hq.bnd 1 (show 1 < 2 by omega)
  replace hq : Pre g (B_Comp std n Z) 89 P (S - 95) t := hq
  generalize hB : S - 95 = B at hq
  have htop : 8 * (B + 89) < B64 := hq.top
  have s0 := Dis.sep (show Dis (B - 10) (10 + 89) (P 1) 48 from hq.stk 1 (show 1 < 2 by omega)) (by omega) (by omega)
  have s1 := Dis.sep (show Dis (B - 10) (10 + 89) g.pT 40 from hq.stp) (by omega) (by omega)
  have s2 := Dis.sep (show Dis (B - 10) (10 + 89) g.hT 8 from hq.sth) (by omega) (by omega)
  have s3 := Dis.sep (show Dis (B - 10) (10 + 89) g.nT 32 from hq.stn) (by omega) (by omega)
  have hsp : t.r rsp = 8 * B := hq.sp
  let u0 := setR t gt10 (t.m (P 0))
  let u1 : St := { u0 with m := Function.update t.m (B + 88) (n % B64) }
  let u : St := { u1 with x := Function.update u1.x 3 (u1.r gt10) }
  have e0 : doOp t (ld gt10 (pt gp1)) = .ok u0 := ld_ok (n := 1) (.pt a0 b0) (by omega)
  have e1 : doOp u0 (.st (pt rsp 704) gp2) = .ok u1 := by
    rw [st_ok (s := u0) (A := B + 88) (n := 1) (.pt (show t.r rsp + 704 = _ by omega) (by omega)) (by omega)]
    show Res.ok { u0 with m := Function.update t.m (B + 88) (t.r gp2) } = _
    rw [hn']
  have e2 : doOp u1 (.toX 3 gt10) = .ok u := rfl
  have hug : u.r gt10 = 8 * P 1 := by
    show t.m (P 0) = _
    rw [hz', hP]
  have hux : u.x 3 = 8 * P 1 := hug
  have hum : ∀ i, i ≠ B + 88 → u.m i = t.m i := fun i hi => by simp [u, u1, Function.update_of_ne hi]
  have huc : u.m (B + 88) = n % B64 := by simp [u, u1]
  have hgu : Good u := doOp_good (doOp_good (doOp_good hq.good e0) e1) e2
  have hpu : Pre g (A_Comp std 1) 89 (fun _ => P 1) B u := by
    refine ⟨hgu, hq.tbl.congr (fun i _ _ => hum i (by omega)) (fun i _ _ => hum i (by omega)) (fun i _ _ => hum i (by omega)),
      ?_, ?_, ?_, (fun e he => nomatch he), hsp, hq.dep, hq.top, ?_, hq.stp, hq.sth, hq.stn, ?_⟩
    · intro w e he
      rcases w with _ | w
      · cases he; exact hux
      · cases he
    · intro w hw
      have : w = 0 := by revert hw; show w < 1 → _; omega
      subst this
      exact b1
    · intro e he; cases he
    · intro w hw
      have : w = 0 := by revert hw; show w < 1 → _; omega
      subst this
      exact hq.stk 1 (show 1 < 2 by omega)
    · intro e he
      have : e.w = 0 := by revert he; revert e; decide
      rw [this]
      exact hq.outT ⟨1, 24, 4⟩ List.mem_cons_self
  obtain ⟨k, rfl⟩ : ∃ k, n = k + 1 := ⟨n - 1, by omega⟩
  have hcode : code g .CompressSquareN = ops (storeReg 10 89) ++ (ops [ld gt10 (pt gp1), .st (pt rsp 704) gp2, .toX 3 gt10] ++ .lab 0 ::
      (compress_body g ++ (ops [.alum .sub (pt rsp 704) (.i 1)] ++ .jcc .nz 0 :: (ops (restoreReg 10 89) ++ [.ret])))) := by
    show code_CompressSquareN g = _
    simp only [code_CompressSquareN, frame, List.append_assoc, List.cons_append, List.nil_append]
  have htgt : target 0 (code g .CompressSquareN) = .ok (compress_body g ++ (ops [.alum .sub (pt rsp 704) (.i 1)] ++ .jcc .nz 0 :: (ops (restoreReg 10 89) ++ [.ret]))) := by
    rw [hcode, target_ops, target_ops, target_lab]
  simp only [List.append_assoc, List.cons_append, List.nil_append]
  refine At.trans (At.ops (Q := fun v => v = u) (.cons e0 (.cons e1 (.cons e2 (.nil rfl))))) ?_
  rintro _ rfl
  refine At.lab ((comp_loop htgt k u h2 hpu hug huc).mono fun v hv => ?_)
  have hin : compInp (fun _ => P 1) u.m = (B_Comp std (k + 1) Z).inp P t.m := by
    have h8 : ∀ o, o + 4 ≤ 48 → vn 4 u.m (P 1 + o) = vn 4 t.m (P 1 + o) := fun o ho => vn_congr fun i _ _ => hum i (by omega)
    show [vn 4 u.m (P 1 + 24), vn 4 u.m (P 1 + 28), vn 4 u.m (P 1 + 16), vn 4 u.m (P 1 + 20), vn 4 u.m (P 1 + 8), vn 4 u.m (P 1 + 12),
      vn 4 u.m (P 1 + 40), vn 4 u.m (P 1 + 44)] = _
    rw [h8 24 (by omega), h8 28 (by omega), h8 16 (by omega), h8 20 (by omega), h8 8 (by omega), h8 12 (by omega), h8 40 (by omega), h8 44 (by omega)]
    rfl
  refine ⟨?_, ?_, ?_, ?_, fun e he => nomatch he⟩
  · intro i h3 h4
    replace h4 : ¬(B - 10 ≤ i ∧ i < B + 89) := h4
    rw [hv.fr i ?_ (by show ¬(B - 10 ≤ i ∧ i < B + 89); exact h4), hum i (by omega)]
    intro e he
    have h5 : ∀ e ∈ compElts 0, ⟨1, e.o, e.n⟩ ∈ compElts 1 := by simp [compElts]
    exact h3 _ (h5 e he)
  · have hval := hv.val
    rw [f_Comp, inp_Comp, hin] at hval
    show ∀ p ∈ (compElts 1).zip (lC ((tCompSquare std)^[k + 1] (rC ((B_Comp std (k + 1) Z).inp P t.m)))), _
    replace hval : ∀ p ∈ (compElts 0).zip (lC ((tCompSquare std)^[k + 1] (rC ((B_Comp std (k + 1) Z).inp P t.m)))), vn p.1.n v.m (P 1 + p.1.o) = p.2 := hval
    generalize (tCompSquare std)^[k + 1] (rC ((B_Comp std (k + 1) Z).inp P t.m)) = z at hval ⊢
    simp only [compElts, lC, List.zip_cons_cons, List.zip_nil_right, List.forall_mem_cons, List.not_mem_nil, false_imp_iff, implies_true] at hval ⊢
    exact hval
  · intro q hq'
    replace hq' : q ∉ gts 10 := hq'
    have h5 : q ≠ gt10 := fun h => hq' (by rw [h]; decide)
    rw [hv.reg q hq']
    simp [u, u1, u0, setR, Function.update_of_ne h5]
  · intro i hi
    replace hi : i ∉ allX := hi
    have h5 : i ≠ 3 := fun h => hi (by rw [h]; decide)
    have h6 : i ∉ [0, 1, 2, 4, 5] := fun h => hi ((show [0, 1, 2, 4, 5] ⊆ allX by decide) h)
    rw [hv.xmm i h6]
    simp [u, u1, u0, setR, Function.update_of_ne h5]
end

end Jit
end Verif
