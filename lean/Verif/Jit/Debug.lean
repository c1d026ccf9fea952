import Verif.Jit.Exec

/-! The debugging aid `debug_save_buf` of the code generator. -/

namespace Verif
namespace Jit

open Reg

/-- `push q`: the store and the new stack pointer -/
def push (q : Reg) : List Op := [.st (pt rsp (B64 - 8)) q, .lea rsp (pt rsp (B64 - 8))]
/-- `pop q` for q different from rsp -/
def pop (q : Reg) : List Op := [ld q (pt rsp 0), .lea rsp (pt rsp 8)]

/-- the loop of zm2.cpp:2324-2327, unrolled by the generator -/
def saveLoop (n : ℕ) : List Op := (List.range n).flatMap fun i => [ld rax (pt rbx (8 * i)), .st (pt rdx (8 * i)) rax]

/-- `debug_save_buf(m, n)`, zm2.cpp:2310-2334; `save` and `debug_buf` lie at the byte addresses `sv`, `db`.  The last load takes
`rbx + 16` where the others take `rcx`, as in line 2332. -/
def saveBuf (sv db : ℕ) (m : Addr) (n : ℕ) : List Op :=
  (push rcx ++ [.mov rcx (.i sv), .st (pt rcx 0) rax, .st (pt rcx 8) rdx, .st (pt rcx 16) rbx] ++ pop rcx) ++
  ([.mov rdx (.i db), .lea rbx m] ++ (saveLoop n ++
  (push rcx ++ [.mov rcx (.i sv), ld rax (pt rcx 0), ld rdx (pt rcx 8), ld rbx (pt rbx 16)] ++ pop rcx)))

/-- memory with n words copied from A to D -/
def copied (m : ℕ → ℕ) (A D n : ℕ) : ℕ → ℕ := fun w => if D ≤ w ∧ w < D + n then m (A + (w - D)) else m w

theorem push_ok {s : St} {S : ℕ} (h : s.r rsp = 8 * (S + 1)) (hS : 8 * (S + 1) < B64) (q : Reg) :
    exec (push q) s = .ok { setR s rsp (8 * S) with m := Function.update s.m S (s.r q) } := by
  have e : ea s.r (pt rsp (B64 - 8)) = 8 * S := by
    simp only [ea, pt, idxVal, h]
    rw [show 8 * (S + 1) + 0 + (B64 - 8) = 8 * S + B64 by omega, Nat.add_mod_right, Nat.mod_eq_of_lt (by omega)]
  simp only [push, exec, doOp, e, store, Nat.mul_mod_right, if_true, Res.bind_ok, Nat.mul_div_cancel_left S (by norm_num : 0 < 8)]
  rfl

theorem pop_ok {s : St} {S : ℕ} (h : s.r rsp = 8 * S) (hS : 8 * (S + 1) < B64) {q : Reg} (hq : q ≠ rsp) :
    exec (pop q) s = .ok (setR (setR s q (s.m S)) rsp (8 * (S + 1))) := by
  have h1 : Ptr s.r (pt rsp 0) S 1 := Ptr.pt (by omega) (by omega)
  unfold pop
  rw [exec_cons, ld_ok h1 (by norm_num), Res.bind_ok]
  have e : ea (setR s q (s.m S)).r (pt rsp 8) = 8 * (S + 1) := by
    simp only [ea, pt, idxVal, setR, Function.update_of_ne hq.symm, h]
    exact Nat.mod_eq_of_lt (by omega)
  simp only [exec, doOp, e, Res.bind_ok]

theorem saveLoop_ok {s : St} {A D : ℕ} (hA : s.r rbx = 8 * A) (hD : s.r rdx = 8 * D) (n : ℕ) (h1 : 8 * (A + n) ≤ B64)
    (h2 : 8 * (D + n) ≤ B64) (hd : A + n ≤ D ∨ D + n ≤ A) :
    ∃ v, exec (saveLoop n) s = .ok { setR s rax v with m := copied s.m A D n } := by
  induction n with
  | zero =>
    refine ⟨s.r rax, ?_⟩
    have : copied s.m A D 0 = s.m := by funext w; unfold copied; rw [if_neg (by omega)]
    rw [this]
    simp [saveLoop, setR]
  | succ n ih =>
    obtain ⟨v, e⟩ := ih (by omega) (by omega) (by omega)
    have es : saveLoop (n + 1) = saveLoop n ++ [ld rax (pt rbx (8 * n)), .st (pt rdx (8 * n)) rax] := by
      unfold saveLoop; rw [List.range_succ, List.flatMap_append, List.flatMap_singleton]
    rw [es, exec_append, e, Res.bind_ok]
    have p1 : Ptr ({ setR s rax v with m := copied s.m A D n } : St).r (pt rbx (8 * n)) (A + n) 1 :=
      Ptr.pt (by simp [setR, hA]; omega) (by omega)
    rw [exec_cons, ld_ok p1 (by norm_num), Res.bind_ok]
    have em : copied s.m A D n (A + n) = s.m (A + n) := by unfold copied; rw [if_neg (by omega)]
    have p2 : Ptr (setR ({ setR s rax v with m := copied s.m A D n } : St) rax (copied s.m A D n (A + n))).r (pt rdx (8 * n)) (D + n) 1 :=
      Ptr.pt (by simp [setR, hD]; omega) (by omega)
    rw [exec_cons, st_ok p2 (by norm_num), Res.bind_ok, exec_nil]
    refine ⟨s.m (A + n), ?_⟩
    congr 1
    simp only [setR, Function.update_idem, em, Function.update_self, St.mk.injEq, true_and]
    funext w
    unfold copied
    by_cases hw : w = D + n
    · rw [hw, Function.update_self, if_pos (by omega)]; congr 1; omega
    · rw [Function.update_of_ne hw]
      by_cases hc : D ≤ w ∧ w < D + n
      · rw [if_pos hc, if_pos (by omega)]
      · rw [if_neg hc, if_neg (by omega)]

/-- memory after the three registers have been saved -/
def saved (s : St) (S V : ℕ) : ℕ → ℕ :=
  Function.update (Function.update (Function.update (Function.update s.m S (s.r rcx)) V (s.r rax)) (V + 1) (s.r rdx)) (V + 2) (s.r rbx)

theorem save_ok {s : St} {S V : ℕ} (h : s.r rsp = 8 * (S + 1)) (hS : 8 * (S + 1) < B64) (hV : 8 * (V + 3) ≤ B64)
    (h1 : S < V ∨ V + 3 ≤ S) :
    exec (push rcx ++ [.mov rcx (.i (8 * V)), .st (pt rcx 0) rax, .st (pt rcx 8) rdx, .st (pt rcx 16) rbx] ++ pop rcx) s =
      .ok { s with m := saved s S V } := by
  have eV : 8 * V % B64 = 8 * V := Nat.mod_eq_of_lt (by omega)
  rw [List.append_assoc, exec_append, push_ok h hS, Res.bind_ok, exec_append]
  rw [exec_cons]
  simp only [doOp, src, eV, Res.bind_ok]
  rw [exec_cons, st_ok (A := V) (n := 1) (Ptr.pt (by simp [setR]) (by omega)) (by norm_num), Res.bind_ok]
  rw [exec_cons, st_ok (A := V + 1) (n := 1) (Ptr.pt (by simp [setR]; omega) (by omega)) (by norm_num), Res.bind_ok]
  rw [exec_cons, st_ok (A := V + 2) (n := 1) (Ptr.pt (by simp [setR]; omega) (by omega)) (by norm_num), Res.bind_ok, exec_nil, Res.bind_ok]
  rw [pop_ok (S := S) (by simp [setR]) hS (by decide)]
  congr 1
  simp only [setR, St.mk.injEq, true_and, saved]
  constructor
  · funext q
    have n1 : S ≠ V + 2 := by omega
    have n2 : S ≠ V + 1 := by omega
    have n3 : S ≠ V := by omega
    by_cases hq : q = rsp
    · rw [hq, Function.update_self, h]
    · rw [Function.update_of_ne hq]
      by_cases hq' : q = rcx
      · rw [hq', Function.update_self, Function.update_of_ne n1, Function.update_of_ne n2, Function.update_of_ne n3,
          Function.update_self]
      · rw [Function.update_of_ne hq', Function.update_of_ne hq', Function.update_of_ne hq]
  · simp [Function.update]

theorem rest_ok {s : St} {S V A : ℕ} (h : s.r rsp = 8 * (S + 1)) (hS : 8 * (S + 1) < B64) (hV : 8 * (V + 3) ≤ B64)
    (h1 : S < V ∨ V + 3 ≤ S) (hA : s.r rbx = 8 * A) (hA' : 8 * (A + 3) ≤ B64) (h2 : S ≠ A + 2) :
    exec (push rcx ++ [.mov rcx (.i (8 * V)), ld rax (pt rcx 0), ld rdx (pt rcx 8), ld rbx (pt rbx 16)] ++ pop rcx) s =
      .ok { setR (setR (setR s rax (s.m V)) rdx (s.m (V + 1))) rbx (s.m (A + 2)) with m := Function.update s.m S (s.r rcx) } := by
  have eV : 8 * V % B64 = 8 * V := Nat.mod_eq_of_lt (by omega)
  rw [List.append_assoc, exec_append, push_ok h hS, Res.bind_ok, exec_append]
  rw [exec_cons]
  simp only [doOp, src, eV, Res.bind_ok]
  rw [exec_cons, ld_ok (A := V) (n := 1) (Ptr.pt (by simp [setR]) (by omega)) (by norm_num), Res.bind_ok]
  rw [exec_cons, ld_ok (A := V + 1) (n := 1) (Ptr.pt (by simp [setR]; omega) (by omega)) (by norm_num), Res.bind_ok]
  rw [exec_cons, ld_ok (A := A + 2) (n := 1) (Ptr.pt (by simp [setR, hA]; omega) (by omega)) (by norm_num), Res.bind_ok, exec_nil, Res.bind_ok]
  rw [pop_ok (S := S) (by simp [setR]) hS (by decide)]
  congr 1
  have n1 : V ≠ S := by omega
  have n2 : V + 1 ≠ S := by omega
  simp only [setR, St.mk.injEq, and_true, Function.update_of_ne n1, Function.update_of_ne n2, Function.update_of_ne h2.symm,
    Function.update_self]
  funext q
  cases q <;> simp [Function.update, h]

/-- Where things are: rsp = 8 (S + 1); `save` at word V, `debug_buf` (128 words, zm2.cpp:316) at word D, the operand at word A, addressed without rdx; at least
three words can be read there.  The word below the stack, `save`, `debug_buf` and the operand are apart. -/
structure SaveCall (s : St) (a : Addr) (n S V D A : ℕ) : Prop where
  sp : s.r rsp = 8 * (S + 1)
  hS : 8 * (S + 1) < B64
  hV : 8 * (V + 3) ≤ B64
  hn : n ≤ 128
  hD : 8 * (D + 128) ≤ B64
  hA : Ptr s.r a A (max n 3)
  av : a.avoid [rdx]
  sv : S < V ∨ V + 3 ≤ S
  sd : S < D ∨ D + n ≤ S
  sa : S < A ∨ A + max n 3 ≤ S
  vd : V + 3 ≤ D ∨ D + n ≤ V
  va : V + 3 ≤ A ∨ A + max n 3 ≤ V
  da : D + n ≤ A ∨ A + max n 3 ≤ D

theorem saveBuf_ok {s : St} {a : Addr} {n S V D A : ℕ} (h : SaveCall s a n S V D A) : ∃ t, exec (saveBuf (8 * V) (8 * D) a n) s = .ok t ∧
    t.r = Function.update s.r rbx (s.m (A + 2)) ∧ t.x = s.x ∧ t.cf = s.cf ∧ t.zf = s.zf ∧
    (∀ i, i < n → t.m (D + i) = s.m (A + i)) ∧
    ∀ w, (w < D ∨ D + n ≤ w) → (w < V ∨ V + 3 ≤ w) → w ≠ S → t.m w = s.m w := by
  obtain ⟨sp, hS, hV, hn', hD, hA, av, sv, sd, sa, vd, va, da⟩ := h
  have hn : n ≤ max n 3 := le_max_left _ _
  have h3 : 3 ≤ max n 3 := le_max_right _ _
  have le := hA.le
  generalize max n 3 = k at hA sa va da hn h3 le
  unfold saveBuf
  rw [exec_append, save_ok sp hS hV sv, Res.bind_ok, exec_append]
  generalize hm : saved s S V = m1
  have m1S : ∀ w, w ≠ S → (w < V ∨ V + 3 ≤ w) → m1 w = s.m w := fun w h1 h2 => by
    rw [← hm]; unfold saved
    rw [Function.update_of_ne (by omega), Function.update_of_ne (by omega), Function.update_of_ne (by omega), Function.update_of_ne h1]
  have m1V : m1 V = s.r rax ∧ m1 (V + 1) = s.r rdx := by
    rw [← hm]; unfold saved
    constructor
    · rw [Function.update_of_ne (by omega), Function.update_of_ne (by omega), Function.update_self]
    · rw [Function.update_of_ne (by omega), Function.update_self]
  have e1 : exec [.mov rdx (.i (8 * D)), .lea rbx a] ({ s with m := m1 } : St) =
      .ok (setR (setR ({ s with m := m1 } : St) rdx (8 * D % B64)) rbx (8 * A)) := by
    have : Ptr (setR ({ s with m := m1 } : St) rdx (8 * D % B64)).r a A k := hA.keep av fun q hq => by
      simp only [setR]
      exact Function.update_of_ne (by simpa using hq) _ _
    simp only [exec, doOp, src, Res.bind_ok, ea_of this (by omega)]
  rw [e1, Res.bind_ok, exec_append]
  rw [Nat.mod_eq_of_lt (show 8 * D < B64 by omega)]
  obtain ⟨v, e2⟩ := saveLoop_ok (s := setR (setR ({ s with m := m1 } : St) rdx (8 * D)) rbx (8 * A)) (A := A) (D := D) (by simp [setR])
    (by simp [setR]) n (by omega) (by omega) (by omega)
  rw [e2, Res.bind_ok, rest_ok (S := S) (V := V) (A := A) (by simp [setR, sp]) hS hV sv (by simp [setR]) (by omega) (by omega)]
  refine ⟨_, rfl, ?_, rfl, rfl, rfl, ?_, ?_⟩
  · simp only [setR]
    have c1 : copied m1 A D n V = s.r rax := by unfold copied; rw [if_neg (by omega), m1V.1]
    have c2 : copied m1 A D n (V + 1) = s.r rdx := by unfold copied; rw [if_neg (by omega), m1V.2]
    have c3 : copied m1 A D n (A + 2) = s.m (A + 2) := by unfold copied; rw [if_neg (by omega), m1S _ (by omega) (by omega)]
    rw [c1, c2, c3]
    funext q
    cases q <;> simp [Function.update]
  · intro i hi
    simp only [setR]
    rw [Function.update_of_ne (by omega)]
    unfold copied
    rw [if_pos (by omega), m1S _ (by omega) (by omega), Nat.add_sub_cancel_left]
  · intro w h1 h2 h3
    simp only [setR]
    rw [Function.update_of_ne h3]
    unfold copied
    rw [if_neg (by omega), m1S _ h3 h2]

end Jit
end Verif
