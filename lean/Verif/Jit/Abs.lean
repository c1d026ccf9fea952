import Verif.Jit.Good

/-! Abstract execution of routines.  An `Act` describes what a piece of code does with the numbers in its operands: which words
it reads, which it writes with which values, and which registers it changes.  Routines made of such pieces, of pointer arithmetic
and of calls are run on abstract states, which only know pointers (as region and offset) and the numbers in some places of memory.
A successful run proves the `Act` of the routine (`run_sound`, `fn_of_run`). -/

namespace Verif
namespace Jit

open Fp Reg

/-- the number in the n words from A on -/
def vn : ℕ → (ℕ → ℕ) → ℕ → ℕ
  | 0, _, _ => 0
  | n + 1, m, A => m A + B64 * vn n m (A + 1)

theorem vn_congr {m m' : ℕ → ℕ} : ∀ {n A : ℕ}, (∀ i, A ≤ i → i < A + n → m' i = m i) → vn n m' A = vn n m A
  | 0, _, _ => rfl
  | n + 1, A, h => by
    unfold vn
    rw [h A (by omega) (by omega), vn_congr (n := n) (A := A + 1) fun i h1 h2 => h i (by omega) (by omega)]

/-- no common word -/
def Dis (A n B k : ℕ) : Prop := ∀ i, A ≤ i → i < A + n → B ≤ i → i < B + k → False

theorem Dis.symm {A n B k : ℕ} (h : Dis A n B k) : Dis B k A n := fun i h1 h2 h3 h4 => h i h3 h4 h1 h2
theorem Dis.sep {A n B k : ℕ} (h : Dis A n B k) (hn : 0 < n) (hk : 0 < k) : A + n ≤ B ∨ B + k ≤ A := by
  by_contra hc
  rcases Nat.le_total A B with hl | hl
  · exact h B hl (by omega) (by omega) (by omega)
  · exact h A (by omega) (by omega) hl (by omega)
theorem Dis.sub {A n B k A' n' B' k' : ℕ} (h : Dis A n B k) (h1 : A ≤ A') (h2 : A' + n' ≤ A + n) (h3 : B ≤ B') (h4 : B' + k' ≤ B + k) :
    Dis A' n' B' k' := fun i a b c d => h i (by omega) (by omega) (by omega) (by omega)
theorem Dis.out {A n B k i : ℕ} (h : Dis A n B k) (h1 : A ≤ i) (h2 : i < A + n) : i < B ∨ B + k ≤ i := by
  by_contra hc
  exact h i h1 h2 (by omega) (by omega)
theorem Dis.of {A n B k : ℕ} (h : A + n ≤ B ∨ B + k ≤ A) : Dis A n B k := fun i a b c d => by omega

/-- the tables of `Fp` read by the generated code -/
structure Tbl (g : Cfg) (m : ℕ → ℕ) : Prop where
  p : ∀ i, i < 10 → rd4 m (g.pT + 4 * i) = pTbl i
  h : ∀ i, i < 2 → rd4 m (g.hT + 4 * i) = halfTbl i
  n : rd8 m (g.nT + 16) = pNTbl 2
  pb : 8 * (g.pT + 40) ≤ B64
  hb : 8 * (g.hT + 8) ≤ B64
  nb : 8 * (g.nT + 32) ≤ B64

theorem Tbl.congr {g : Cfg} {m m' : ℕ → ℕ} (t : Tbl g m) (h1 : ∀ i, g.pT ≤ i → i < g.pT + 40 → m' i = m i)
    (h2 : ∀ i, g.hT ≤ i → i < g.hT + 8 → m' i = m i) (h3 : ∀ i, g.nT ≤ i → i < g.nT + 32 → m' i = m i) : Tbl g m' where
  p i hi := by rw [← t.p i hi]; exact rd4_congr fun j a b => h1 j (by omega) (by omega)
  h i hi := by rw [← t.h i hi]; exact rd4_congr fun j a b => h2 j (by omega) (by omega)
  n := by
    rw [← t.n]; unfold rd8
    rw [rd4_congr (m := m) (m' := m') fun j a b => h3 j (by omega) (by omega), rd4_congr (m := m) (m' := m') fun j a b => h3 j (by omega) (by omega)]
  pb := t.pb
  hb := t.hb
  nb := t.nb

/-- where an operand is: at q + d, at the address in an xmm register, or at a known address -/
inductive Arg where
  | ad (q : Reg) (d : ℕ)
  | xm (i : ℕ)
  | fix (A : ℕ)

def Arg.val (s : St) : Arg → ℕ
  | .ad q d => s.r q + d
  | .xm i => s.x i
  | .fix A => A

/-- n words at offset o of operand w -/
structure Elt where
  w : ℕ
  o : ℕ
  n : ℕ

/-- what a piece of code does -/
structure Act where
  args : List Arg
  /-- lengths of the operands in words -/
  len : List ℕ
  /-- (w, w', e): operands w and w' have no common word, or, if e, they are the same -/
  al : List (ℕ × ℕ × Bool)
  ins : List Elt
  outs : List Elt
  /-- the numbers written, from the numbers read -/
  f : List ℕ → List ℕ
  /-- registers that must point into `s_pTbl` (offset in words) -/
  pre : List (Reg × ℕ)
  /-- registers that point into `s_pTbl` afterwards -/
  post : List (Reg × ℕ)
  clob : List Reg
  clobX : List ℕ
  /-- words used below the stack pointer -/
  depth : ℕ

def Act.l (a : Act) (w : ℕ) : ℕ := a.len.getD w 0

/-- before: `up` words above the stack pointer also belong to the stack -/
structure Pre (g : Cfg) (a : Act) (up : ℕ) (P : ℕ → ℕ) (S : ℕ) (s : St) : Prop where
  good : Good s
  tbl : Tbl g s.m
  args : ∀ w e, a.args[w]? = some e → e.val s = 8 * P w
  bnd : ∀ w, w < a.args.length → 8 * (P w + a.l w) ≤ B64
  al : ∀ e ∈ a.al, Dis (P e.1) (a.l e.1) (P e.2.1) (a.l e.2.1) ∨ (e.2.2 = true ∧ P e.1 = P e.2.1)
  pre : ∀ e ∈ a.pre, s.r e.1 = 8 * (g.pT + e.2)
  sp : s.r rsp = 8 * S
  dep : a.depth ≤ S
  top : 8 * (S + up) < B64
  stk : ∀ w, w < a.args.length → Dis (S - a.depth) (a.depth + up) (P w) (a.l w)
  stp : Dis (S - a.depth) (a.depth + up) g.pT 40
  sth : Dis (S - a.depth) (a.depth + up) g.hT 8
  stn : Dis (S - a.depth) (a.depth + up) g.nT 32
  outT : ∀ e ∈ a.outs, Dis (P e.w) (a.l e.w) g.pT 40 ∧ Dis (P e.w) (a.l e.w) g.hT 8 ∧ Dis (P e.w) (a.l e.w) g.nT 32

def Act.inp (a : Act) (P : ℕ → ℕ) (m : ℕ → ℕ) : List ℕ := a.ins.map fun e => vn e.n m (P e.w + e.o)

/-- afterwards; `loc` words above the stack pointer may have changed too -/
structure Post (g : Cfg) (a : Act) (loc : ℕ) (P : ℕ → ℕ) (S : ℕ) (s t : St) : Prop where
  fr : ∀ i, (∀ e ∈ a.outs, ¬(P e.w + e.o ≤ i ∧ i < P e.w + e.o + e.n)) → ¬(S - a.depth ≤ i ∧ i < S + loc) → t.m i = s.m i
  val : ∀ p ∈ a.outs.zip (a.f (a.inp P s.m)), vn p.1.n t.m (P p.1.w + p.1.o) = p.2
  reg : ∀ q, q ∉ a.clob → t.r q = s.r q
  xmm : ∀ i, i ∉ a.clobX → t.x i = s.x i
  post : ∀ e ∈ a.post, t.r e.1 = 8 * (g.pT + e.2)

variable (g : Cfg) (ra : Sub → ℕ → ℕ)

/-- the piece c does a, in any routine -/
def Sat (c : Code) (a : Act) : Prop := ∀ k s P S, Pre g a 0 P S s → Trip (code g) ra k c s (Post g a 0 P S s)

/-- routine j does a -/
def SatFn (j : Sub) (a : Act) : Prop := ∀ s P S, Pre g a 1 P S s → Fn (code g) ra j s (Post g a 0 P S s)

theorem sat_call {j : Sub} {a : Act} (h : SatFn g ra j a) (h1 : rsp ∉ a.clob) (h2 : ∀ e ∈ a.args, ∀ d, e ≠ .ad rsp d)
    (h3 : ∀ e ∈ a.pre, e.1 ≠ rsp) (h4 : ∀ e ∈ a.post, e.1 ≠ rsp) (h5 : ∀ e ∈ a.outs, e.w < a.args.length ∧ e.o + e.n ≤ a.l e.w)
    (h6 : ∀ e ∈ a.ins, e.w < a.args.length ∧ e.o + e.n ≤ a.l e.w) : Sat g ra [.call j] { a with depth := a.depth + 1 } := by
  intro k s P S hp
  have hdep : a.depth + 1 ≤ S := hp.dep
  have htop : 8 * (S + 0) < B64 := hp.top
  have hj : ∀ i, S - (a.depth + 1) ≤ i → i < S → (i < g.pT ∨ g.pT + 40 ≤ i) ∧ (i < g.hT ∨ g.hT + 8 ≤ i) ∧ (i < g.nT ∨ g.nT + 32 ≤ i) := by
    intro i a1 a2
    have b1 := hp.stp.out (i := i) a1 (by show i < S - (a.depth + 1) + (a.depth + 1 + 0); omega)
    have b2 := hp.sth.out (i := i) a1 (by show i < S - (a.depth + 1) + (a.depth + 1 + 0); omega)
    have b3 := hp.stn.out (i := i) a1 (by show i < S - (a.depth + 1) + (a.depth + 1 + 0); omega)
    omega
  have hw : ∀ w, w < a.args.length → S - 1 < P w ∨ P w + a.l w ≤ S - 1 := by
    intro w hw
    have := (hp.stk w hw).out (i := S - 1) (by show S - (a.depth + 1) ≤ S - 1; omega) (by show S - 1 < S - (a.depth + 1) + (a.depth + 1 + 0); omega)
    have e : Act.l { a with depth := a.depth + 1 } w = a.l w := rfl
    rw [e] at this
    exact this
  have hsm : ∀ v i, i ≠ S - 1 → (pushed s S v).m i = s.m i := fun v i hi => Function.update_of_ne hi _ _
  refine Trip.call (P := fun t => ∃ v, Post g a 0 P (S - 1) (pushed s S v) t) hp.sp (by omega) (by omega) (fun v hv => ?_) ?_
  · have hpre : Pre g a 1 P (S - 1) (pushed s S v) :=
      { good := ⟨upd_lt hp.good.r (by omega), hp.good.x, upd_lt hp.good.m hv, hp.good.c⟩
        tbl := hp.tbl.congr
          (fun i a1 a2 => hsm v i fun e => by have := hj i (by omega) (by omega); omega)
          (fun i a1 a2 => hsm v i fun e => by have := hj i (by omega) (by omega); omega)
          (fun i a1 a2 => hsm v i fun e => by have := hj i (by omega) (by omega); omega)
        args := by
          intro w e he
          rw [← hp.args w e he]
          cases e with
          | xm i => rfl
          | fix A => rfl
          | ad q d =>
            have : q ≠ rsp := fun hq => h2 _ (List.mem_of_getElem? he) d (by rw [hq])
            simp [Arg.val, pushed, setR_r, this]
        bnd := hp.bnd
        al := hp.al
        pre := by
          intro e he
          rw [← hp.pre e he]
          simp [pushed, setR_r, h3 e he]
        sp := by simp [pushed, setR_r]
        dep := by omega
        top := by omega
        stk := fun w hw => (hp.stk w hw).sub (by show S - (a.depth + 1) ≤ _; omega) (by show _ ≤ S - (a.depth + 1) + (a.depth + 1 + 0); omega) le_rfl le_rfl
        stp := hp.stp.sub (by show S - (a.depth + 1) ≤ _; omega) (by show _ ≤ S - (a.depth + 1) + (a.depth + 1 + 0); omega) le_rfl le_rfl
        sth := hp.sth.sub (by show S - (a.depth + 1) ≤ _; omega) (by show _ ≤ S - (a.depth + 1) + (a.depth + 1 + 0); omega) le_rfl le_rfl
        stn := hp.stn.sub (by show S - (a.depth + 1) ≤ _; omega) (by show _ ≤ S - (a.depth + 1) + (a.depth + 1 + 0); omega) le_rfl le_rfl
        outT := hp.outT }
    refine (h _ _ _ hpre).mono fun t ht => ⟨?_, ?_, v, ht⟩
    · rw [ht.reg rsp h1]; simp [pushed, setR_r]
    · rw [ht.fr (S - 1) (fun e he hc => ?_) (by omega)]
      · simp [pushed]
      · have := hw e.w (h5 e he).1; have := (h5 e he).2; omega
  · rintro t ⟨v, ht⟩
    refine ⟨?_, ?_, ?_, ?_, ?_⟩
    · intro i hi hs
      have hs : ¬(S - (a.depth + 1) ≤ i ∧ i < S + 0) := hs
      rw [setR_m, ht.fr i hi (by omega), hsm v i (by omega)]
    · intro p hpm
      rw [setR_m]
      refine ht.val p ?_
      have e : a.inp P (pushed s S v).m = Act.inp { a with depth := a.depth + 1 } P s.m := by
        unfold Act.inp
        refine List.map_congr_left fun e he => vn_congr fun i a1 a2 => hsm v i ?_
        have := hw e.w (h6 e he).1; have := (h6 e he).2; omega
      rw [e]; exact hpm
    · intro q hq
      rcases eq_or_ne q rsp with rfl | hne
      · simp [setR_r, hp.sp]
      · rw [setR_r, Function.update_of_ne hne, ht.reg q hq]
        simp [pushed, setR_r, hne]
    · intro i hi
      rw [setR_x, ht.xmm i hi]; rfl
    · intro e he
      rw [setR_r, Function.update_of_ne (h4 e he)]
      exact ht.post e he

end Jit
end Verif
