import Verif.Jit.Progs

/-!
Straight-line C++ code on objects in memory: the template code of include/bn.h as a list of calls that read and
write the `Fp` (or `FpDbl`) members of objects.  Arguments are references, so two arguments may be the same object.

A cell is one `Fp` or one `FpDbl`; `Loc` is a reference to a cell: an object and the position in it.  Object 0
holds the local variables of the routine under consideration, each variable at its own position; every other
number is an object of the caller.  Memory of different types does not overlap (the type is a function of the cell).
-/

namespace Verif.Cpp
open Jit (r2 r6 r12 l2 l6 l12)

/-- a reference to an `Fp` or `FpDbl` -/
structure Loc where
  o : ℕ
  i : ℕ
  deriving DecidableEq

/-- the cell k places further: `(&x.a_)[k]` -/
def Loc.plus (l : Loc) (k : ℕ) : Loc := ⟨l.o, l.i + k⟩
def Loc.beq (l l' : Loc) : Bool := Nat.beq l.o l'.o && Nat.beq l.i l'.i

/-- contents of memory; cells hold values of type V: buffers (`ℕ`), or canonical field elements in Tmpl.lean -/
abbrev MemV (V : Type) := Loc → V
abbrev Mem := MemV ℕ

/-- one call: reads `ins`, then writes `outs` -/
structure StmtV (V : Type) where
  outs : List Loc
  ins : List Loc
  fn : List V → List V
abbrev Stmt := StmtV ℕ

section
variable {V : Type}

def write : List Loc → List V → MemV V → MemV V
  | l :: ls, v :: vs, m => write ls vs (fun k => bif k.beq l then v else m k)
  | _, _, m => m

def step (m : MemV V) (s : StmtV V) : MemV V := write s.outs (s.fn (s.ins.map m)) m

/-- run the calls in order -/
def exec : List (StmtV V) → MemV V → MemV V
  | [], m => m
  | s :: p, m => exec p (step m s)

/-- n cells from l on -/
def rd (m : MemV V) (l : Loc) : ℕ → List V
  | 0 => []
  | n + 1 => m l :: rd m (l.plus 1) n

end

/-! ### Shapes of calls -/

/-- one cell from one -/
def u1 (f : ℕ → ℕ) (z x : Loc) : Stmt := ⟨[z], [x], fun v => [f (v.getD 0 0)]⟩
/-- one cell from two -/
def b1 (f : ℕ → ℕ → ℕ) (z x y : Loc) : Stmt := ⟨[z], [x, y], fun v => [f (v.getD 0 0) (v.getD 1 0)]⟩
/-- `z = x` -/
def cp1 (z x : Loc) : Stmt := u1 (fun v => v) z x
def cells (l : Loc) : ℕ → List Loc
  | 0 => []
  | n + 1 => l :: cells (l.plus 1) n
/-- `Fp2` (or `Fp2Dbl`) from one -/
def u2 (f : R2 → R2) (z x : Loc) : Stmt := ⟨cells z 2, cells x 2, fun v => l2 (f (r2 v 0))⟩
/-- `Fp2` (or `Fp2Dbl`) from two -/
def b2 (f : R2 → R2 → R2) (z x y : Loc) : Stmt := ⟨cells z 2, cells x 2 ++ cells y 2, fun v => l2 (f (r2 v 0) (r2 v 2))⟩
/-- `z = x` for an `Fp2` -/
def cp2 (z x : Loc) : Stmt := u2 (fun v => v) z x
/-- `Fp6` (or `Fp6Dbl`) from one -/
def u6 (f : R6 → R6) (z x : Loc) : Stmt := ⟨cells z 6, cells x 6, fun v => l6 (f (r6 v 0))⟩
/-- `Fp6` (or `Fp6Dbl`) from two -/
def b6 (f : R6 → R6 → R6) (z x y : Loc) : Stmt := ⟨cells z 6, cells x 6 ++ cells y 6, fun v => l6 (f (r6 v 0) (r6 v 6))⟩
/-- `Fp12` from one -/
def u12 (f : R12 → R12) (z x : Loc) : Stmt := ⟨cells z 12, cells x 12, fun v => l12 (f (r12 v 0))⟩
/-- `Fp12` from two -/
def b12 (f : R12 → R12 → R12) (z x y : Loc) : Stmt := ⟨cells z 12, cells x 12 ++ cells y 12, fun v => l12 (f (r12 v 0) (r12 v 12))⟩

/-! ### Statements about runs -/

/-- l is one of the n cells from z on -/
def In (z : Loc) (n : ℕ) (l : Loc) : Prop := l.o = z.o ∧ z.i ≤ l.i ∧ l.i < z.i + n
/-- no common cell -/
def Apart (x : Loc) (n : ℕ) (y : Loc) (k : ℕ) : Prop := x.o ≠ y.o ∨ x.i + n ≤ y.i ∨ y.i + k ≤ x.i
/-- an object of the caller -/
def Ext (l : Loc) : Prop := l.o ≠ 0
/-- the operand x is the n-cell object z itself or lies apart from it -/
def Same (z x : Loc) (n : ℕ) : Prop := x = z ∨ Apart z n x n

/-- Afterwards the cells from z on hold v and no other object of the caller has changed. -/
def Result {V : Type} (m m' : MemV V) (z : Loc) (v : List V) : Prop :=
  rd m' z v.length = v ∧ ∀ l, Ext l → ¬ In z v.length l → m' l = m l

/-- The same with several written objects. -/
def Results {V : Type} (m m' : MemV V) (zs : List (Loc × List V)) : Prop :=
  (∀ e ∈ zs, rd m' e.1 e.2.length = e.2) ∧ ∀ l, Ext l → (∀ e ∈ zs, ¬ In e.1 e.2.length l) → m' l = m l

/-! ### Renaming -/

def StmtV.map {V : Type} (π : Loc → Loc) (s : StmtV V) : StmtV V := ⟨s.outs.map π, s.ins.map π, s.fn⟩
/-- names: object 0 the locals, object k + 1 the parameter k -/
def plc (P : List Loc) (l : Loc) : Loc :=
  match l.o with
  | 0 => l
  | k + 1 => (P.getD k ⟨0, 0⟩).plus l.i
/-- memory seen through names: local variables and the values of the parameters -/
def seen {V : Type} [Inhabited V] (loc : ℕ → V) (vs : List (List V)) : MemV V := fun l =>
  match l.o with
  | 0 => loc l.i
  | k + 1 => (vs.getD k []).getD l.i default

/-- every name lies in its object and every written one in an object of `wr` (or is local) -/
def okL (lens : List ℕ) (l : Loc) : Bool :=
  match l.o with
  | 0 => true
  | k + 1 => Nat.ble (l.i + 1) (lens.getD k 0)
def okW (lens wr : List ℕ) (l : Loc) : Bool :=
  match l.o with
  | 0 => true
  | k + 1 => Nat.ble (l.i + 1) (lens.getD k 0) && wr.any (Nat.beq k)
def ok {V : Type} (lens wr : List ℕ) (p : List (StmtV V)) : Bool :=
  p.all fun s => s.outs.all (okW lens wr) && s.ins.all (okL lens)

theorem beq_iff {l k : Loc} : l.beq k = true ↔ l = k := by
  rcases l with ⟨a, b⟩; rcases k with ⟨c, d⟩
  unfold Loc.beq
  simp only [Bool.and_eq_true, Nat.beq_eq, Loc.mk.injEq]

theorem getD_lens {lens : List ℕ} {k i : ℕ} (h : i < lens.getD k 0) : k < lens.length := by
  by_contra hk
  have : lens.getD k 0 = 0 := by
    unfold List.getD
    rw [List.getElem?_eq_none (by omega)]
    rfl
  omega

section
variable {V : Type} [Inhabited V] {lens wr : List ℕ} {P : List Loc}

/-- the arguments: objects of the caller; a written one lies apart from the others -/
structure Args (lens wr : List ℕ) (P : List Loc) : Prop where
  len : P.length = lens.length
  ext : ∀ k, k < lens.length → Ext (P.getD k ⟨0, 0⟩)
  dis : ∀ a, a < lens.length → a ∈ wr → ∀ b, b < lens.length → a ≠ b →
    Apart (P.getD a ⟨0, 0⟩) (lens.getD a 0) (P.getD b ⟨0, 0⟩) (lens.getD b 0)

theorem okW_L {l : Loc} (h : okW lens wr l = true) : okL lens l = true := by
  rcases l with ⟨_ | k, i⟩
  · rfl
  · unfold okW at h; unfold okL
    simp only [Bool.and_eq_true] at h ⊢
    exact h.1

theorem plc_inj (hP : Args lens wr P) {w u : Loc} (hw : okW lens wr w = true) (hu : okL lens u = true)
    (h : plc P w = plc P u) : w = u := by
  rcases w with ⟨_ | a, i⟩ <;> rcases u with ⟨_ | b, j⟩
  · exact h
  · unfold okL at hu
    simp only at hu
    have hj := Nat.le_of_ble_eq_true hu
    have := hP.ext b (getD_lens (i := j) (by omega))
    exact absurd (congrArg Loc.o h).symm this
  · unfold okW at hw
    simp only [Bool.and_eq_true] at hw
    have hj := Nat.le_of_ble_eq_true hw.1
    have := hP.ext a (getD_lens (i := i) (by omega))
    exact absurd (congrArg Loc.o h) this
  · unfold okW at hw
    unfold okL at hu
    simp only [Bool.and_eq_true] at hw hu
    have hi := Nat.le_of_ble_eq_true hw.1
    have hj := Nat.le_of_ble_eq_true hu
    have ho : (plc P ⟨a + 1, i⟩).o = (plc P ⟨b + 1, j⟩).o := congrArg Loc.o h
    change (P.getD a ⟨0, 0⟩).o = (P.getD b ⟨0, 0⟩).o at ho
    have hn : (plc P ⟨a + 1, i⟩).i = (plc P ⟨b + 1, j⟩).i := congrArg Loc.i h
    change (P.getD a ⟨0, 0⟩).i + i = (P.getD b ⟨0, 0⟩).i + j at hn
    have ha : a ∈ wr := by
      have := hw.2
      rw [List.any_eq_true] at this
      obtain ⟨x, hx, e⟩ := this
      rw [Nat.eq_of_beq_eq_true e]; exact hx
    by_cases hab : a = b
    · subst hab
      have : i = j := by omega
      rw [this]
    · rcases hP.dis a (getD_lens (i := i) (by omega)) ha b (getD_lens (i := j) (by omega)) hab with h' | h' | h'
      · exact absurd ho h'
      · omega
      · omega

omit [Inhabited V] in
theorem write_map (hP : Args lens wr P) (ls : List Loc) (h : ls.all (okW lens wr) = true) (vs : List V) (m M : MemV V)
    (hm : ∀ u, okL lens u = true → m (plc P u) = M u) :
    ∀ u, okL lens u = true → write (ls.map (plc P)) vs m (plc P u) = write ls vs M u := by
  induction ls generalizing vs m M with
  | nil => intro u hu; exact hm u hu
  | cons l ls ih =>
    simp only [List.all_cons, Bool.and_eq_true] at h
    cases vs with
    | nil => intro u hu; exact hm u hu
    | cons v vs =>
      refine ih h.2 vs _ _ fun u hu => ?_
      by_cases e : u = l
      · rw [e, beq_iff.2 rfl, beq_iff.2 rfl, cond_true, cond_true]
      · have e1 : u.beq l = false := by rw [Bool.eq_false_iff]; exact fun h' => e (beq_iff.1 h')
        have e2 : (plc P u).beq (plc P l) = false := by
          rw [Bool.eq_false_iff]; exact fun h' => e (plc_inj hP h.1 hu (beq_iff.1 h').symm).symm
        rw [e1, e2, cond_false, cond_false]; exact hm u hu

omit [Inhabited V] in
theorem exec_map (hP : Args lens wr P) (p : List (StmtV V)) (h : ok lens wr p = true) (m M : MemV V)
    (hm : ∀ u, okL lens u = true → m (plc P u) = M u) :
    ∀ u, okL lens u = true → exec (p.map (StmtV.map (plc P))) m (plc P u) = exec p M u := by
  induction p generalizing m M with
  | nil => exact hm
  | cons s p ih =>
    unfold ok at h
    simp only [List.all_cons, Bool.and_eq_true] at h
    refine ih h.2 _ _ ?_
    have e : (s.map (plc P)).ins.map m = s.ins.map M := by
      show (s.ins.map (plc P)).map m = _
      rw [List.map_map]
      refine List.map_congr_left fun u hu => hm u ?_
      exact List.all_eq_true.1 h.1.2 u hu
    unfold step
    rw [e]
    exact write_map hP s.outs h.1.1 _ m M hm

omit [Inhabited V] in
theorem write_frame (ls : List Loc) (vs : List V) (m : MemV V) {l : Loc} (h : l ∉ ls) : write ls vs m l = m l := by
  induction ls generalizing vs m with
  | nil => rfl
  | cons k ls ih =>
    cases vs with
    | nil => rfl
    | cons v vs =>
      rw [List.mem_cons, not_or] at h
      unfold write
      rw [ih _ _ h.2]
      have : l.beq k = false := by rw [Bool.eq_false_iff]; exact fun h' => h.1 (beq_iff.1 h')
      rw [this, cond_false]

omit [Inhabited V] in
theorem exec_frame (p : List (StmtV V)) (h : ok lens wr p = true) (m : MemV V) {l : Loc} (he : Ext l)
    (hl : ∀ a, a ∈ wr → ¬ In (P.getD a ⟨0, 0⟩) (lens.getD a 0) l) : exec (p.map (StmtV.map (plc P))) m l = m l := by
  induction p generalizing m with
  | nil => rfl
  | cons s p ih =>
    unfold ok at h
    simp only [List.all_cons, Bool.and_eq_true] at h
    rw [List.map_cons]
    unfold exec
    rw [ih h.2]
    unfold step
    refine write_frame _ _ _ ?_
    show l ∉ s.outs.map (plc P)
    intro hmem
    obtain ⟨k, hk, rfl⟩ := List.mem_map.1 hmem
    have hw := List.all_eq_true.1 h.1.1 k hk
    rcases k with ⟨_ | a, i⟩
    · exact he rfl
    · unfold okW at hw
      simp only [Bool.and_eq_true] at hw
      have hi := Nat.le_of_ble_eq_true hw.1
      have ha : a ∈ wr := by
        have := hw.2
        rw [List.any_eq_true] at this
        obtain ⟨x, hx, e⟩ := this
        rw [Nat.eq_of_beq_eq_true e]; exact hx
      refine hl a ha ⟨rfl, ?_, ?_⟩
      · show _ ≤ _ + i; omega
      · show _ + i < _; omega

theorem rd_get (m : MemV V) (l : Loc) (n i : ℕ) (h : i < n) : (rd m l n).getD i default = m (l.plus i) := by
  induction n generalizing l i with
  | zero => omega
  | succ n ih =>
    unfold rd
    cases i with
    | zero => rfl
    | succ i =>
      rw [List.getD_cons_succ, ih _ _ (by omega)]
      congr 1
      show (⟨l.o, l.i + 1 + i⟩ : Loc) = ⟨l.o, l.i + (i + 1)⟩
      congr 1; omega

omit [Inhabited V] in
theorem rd_length (m : MemV V) (l : Loc) (n : ℕ) : (rd m l n).length = n := by
  induction n generalizing l with
  | zero => rfl
  | succ n ih => unfold rd; rw [List.length_cons, ih]

omit [Inhabited V] in
theorem rd_ext {m M : MemV V} {l k : Loc} {n : ℕ} (h : ∀ i, i < n → m (l.plus i) = M (k.plus i)) : rd m l n = rd M k n := by
  induction n generalizing l k with
  | zero => rfl
  | succ n ih =>
    unfold rd
    rw [show m l = M k from h 0 (by omega), ih fun i hi => ?_]
    have e : ∀ x : Loc, (x.plus 1).plus i = x.plus (i + 1) := fun x => by
      show (⟨x.o, x.i + 1 + i⟩ : Loc) = ⟨x.o, x.i + (i + 1)⟩
      congr 1; omega
    rw [e, e]
    exact h _ (by omega)

/-- A run on the caller's objects is the run on names. -/
theorem run (hP : Args lens wr P) {p : List (StmtV V)} (h : ok lens wr p = true) (m : MemV V) {vs : List (List V)}
    (hv : ∀ k, k < lens.length → vs.getD k [] = rd m (P.getD k ⟨0, 0⟩) (lens.getD k 0)) :
    (∀ k, k < lens.length → rd (exec (p.map (StmtV.map (plc P))) m) (P.getD k ⟨0, 0⟩) (lens.getD k 0) =
      rd (exec p (seen (fun i => m ⟨0, i⟩) vs)) ⟨k + 1, 0⟩ (lens.getD k 0)) ∧
    ∀ l, Ext l → (∀ a, a ∈ wr → ¬ In (P.getD a ⟨0, 0⟩) (lens.getD a 0) l) →
      exec (p.map (StmtV.map (plc P))) m l = m l := by
  refine ⟨fun k hk => rd_ext fun i hi => ?_, fun l he hl => exec_frame p h m he hl⟩
  have hu : okL lens ⟨k + 1, i⟩ = true := by
    show Nat.ble (i + 1) _ = true; exact Nat.ble_eq_true_of_le (by omega)
  have := exec_map hP p h m (seen (fun i => m ⟨0, i⟩) vs) (fun u hu => ?_) ⟨k + 1, i⟩ hu
  · refine this.trans ?_
    congr 1
    show (⟨k + 1, i⟩ : Loc) = ⟨k + 1, 0 + i⟩
    rw [Nat.zero_add]
  · rcases u with ⟨_ | b, j⟩
    · rfl
    · unfold okL at hu
      simp only at hu
      have hj := Nat.le_of_ble_eq_true hu
      have hb := getD_lens (lens := lens) (k := b) (i := j) (by omega)
      show m ((P.getD b ⟨0, 0⟩).plus j) = (vs.getD b []).getD j default
      rw [hv b hb, rd_get _ _ _ _ (by omega)]
end

end Verif.Cpp
