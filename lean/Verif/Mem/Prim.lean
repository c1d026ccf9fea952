import Verif.Vuint.Model
import Mathlib.Logic.Function.Basic

/-! The C routines of `src/zm.cpp` on one flat memory of 64-bit words, so that output and operands may overlap.

A pointer is the number of a word; `m a` is the word at a. -/

namespace Verif
namespace Mem

/-- the n words from a on -/
def rd (m : ℕ → ℕ) : ℕ → ℕ → List ℕ
  | _, 0 => []
  | a, n + 1 => m a :: rd m (a + 1) n

/-- memory after storing the words at a, a+1, ... -/
def wr (m : ℕ → ℕ) : ℕ → List ℕ → (ℕ → ℕ)
  | _, [] => m
  | a, w :: ws => wr (Function.update m a w) (a + 1) ws

/-- loop of `in_addN` (zm.cpp:16-32): n words to go, carry c -/
def addN : ℕ → (ℕ → ℕ) → ℕ → ℕ → ℕ → ℕ → (ℕ → ℕ) × ℕ
  | 0, m, c, _, _, _ => (m, c)
  | n + 1, m, c, o, x, y =>
    let xc := (m x + c) % B64
    if xc < c then addN n (Function.update m o (m y)) c (o + 1) (x + 1) (y + 1)
    else
      let xc' := (xc + m y) % B64
      let c' := if m y > xc' then 1 else 0
      addN n (Function.update m o xc') c' (o + 1) (x + 1) (y + 1)

/-- loop of `in_add` (zm.cpp:43-51) -/
def add1Loop : ℕ → (ℕ → ℕ) → ℕ → ℕ → ℕ → (ℕ → ℕ) × ℕ
  | 0, m, c, _, _ => (m, c)
  | n + 1, m, c, o, x =>
    let xc := (m x + c) % B64
    if xc < c then add1Loop n (Function.update m o 0) c (o + 1) (x + 1)
    else add1Loop n (Function.update m o xc) 0 (o + 1) (x + 1)

/-- `in_add` (zm.cpp:37-52), n+1 words -/
def add1 (n : ℕ) (m : ℕ → ℕ) (o x y : ℕ) : (ℕ → ℕ) × ℕ :=
  let xc := (m x + y) % B64
  let c := if y > xc then 1 else 0
  add1Loop n (Function.update m o xc) c (o + 1) (x + 1)

/-- loop of `in_subN` (zm.cpp:56-72) -/
def subN : ℕ → (ℕ → ℕ) → ℕ → ℕ → ℕ → ℕ → (ℕ → ℕ) × ℕ
  | 0, m, c, _, _, _ => (m, c)
  | n + 1, m, c, o, x, y =>
    let yc := (m y + c) % B64
    if yc < c then subN n (Function.update m o (m x)) c (o + 1) (x + 1) (y + 1)
    else
      let c' := if m x < yc then 1 else 0
      subN n (Function.update m o ((m x + B64 - yc) % B64)) c' (o + 1) (x + 1) (y + 1)

/-- loop of `in_sub` (zm.cpp:82-90) -/
def sub1Loop : ℕ → (ℕ → ℕ) → ℕ → ℕ → ℕ → (ℕ → ℕ) × ℕ
  | 0, m, c, _, _ => (m, c)
  | n + 1, m, c, o, x =>
    if m x < c then sub1Loop n (Function.update m o (B64 - 1)) c (o + 1) (x + 1)
    else sub1Loop n (Function.update m o ((m x + B64 - c) % B64)) 0 (o + 1) (x + 1)

/-- `in_sub` (zm.cpp:77-91), n+1 words -/
def sub1 (n : ℕ) (m : ℕ → ℕ) (o x y : ℕ) : (ℕ → ℕ) × ℕ :=
  let c := if m x < y then 1 else 0
  sub1Loop n (Function.update m o ((m x + B64 - y) % B64)) c (o + 1) (x + 1)

/-- loop of `in_mul` (zm.cpp:127-136) with running high word H; the comparison reads the word just stored -/
def mul1 : ℕ → (ℕ → ℕ) → ℕ → ℕ → ℕ → ℕ → (ℕ → ℕ)
  | 0, m, H, o, _, _ => Function.update m o H
  | n + 1, m, H, o, x, y =>
    let t := H
    let H := m x * y / B64
    let L := m x * y % B64
    let m := Function.update m o ((t + L) % B64)
    let H := if m o < t then (H + 1) % B64 else H
    mul1 n m H (o + 1) (x + 1) y

/-- quotient of `divUnit` (zm.cpp:144-162) -/
def quo (r x y : ℕ) : ℕ := (r * B64 + x) / y % B64

/-- remainder of `divUnit` (zm.cpp:144-162) -/
def rem (r x y : ℕ) : ℕ := (r * B64 + x) % y

/-- body of the loop of `in_div` (zm.cpp:173) on memory and remainder -/
def divStep (q x y : ℕ) (s : (ℕ → ℕ) × ℕ) (i : ℕ) : (ℕ → ℕ) × ℕ :=
  (Function.update s.1 (q + i) (quo s.2 (s.1 (x + i)) y), rem s.2 (s.1 (x + i)) y)

/-- loop of `in_div` (zm.cpp:169-176) from remainder r: i runs from n-1 down to 0 -/
def div1 (n : ℕ) (m : ℕ → ℕ) (r q x y : ℕ) : (ℕ → ℕ) × ℕ := (List.range n).reverse.foldl (divStep q x y) (m, r)

theorem div1_succ (n : ℕ) (m : ℕ → ℕ) (r q x y : ℕ) : div1 (n + 1) m r q x y =
    div1 n (Function.update m (q + n) (quo r (m (x + n)) y)) (rem r (m (x + n)) y) q x y := by
  unfold div1
  rw [List.range_succ, List.reverse_append, List.reverse_singleton, List.singleton_append, List.foldl_cons, divStep]

/-- `in_mod` (zm.cpp:178-185): i runs from n-1 down to 0 -/
def mod1 (n : ℕ) (m : ℕ → ℕ) (x y : ℕ) : ℕ := (List.range n).reverse.foldl (fun r i => rem r (m (x + i)) y) 0

/-! ### the routines compute the list functions -/

theorem length_rd (m : ℕ → ℕ) (a n : ℕ) : (rd m a n).length = n := by
  induction n generalizing a with
  | zero => rfl
  | succ n ih => unfold rd; rw [List.length_cons, ih]

theorem rd_congr {m m' : ℕ → ℕ} {a n : ℕ} (h : ∀ i, a ≤ i → i < a + n → m i = m' i) : rd m a n = rd m' a n := by
  induction n generalizing a with
  | zero => rfl
  | succ n ih => unfold rd; rw [h a (by omega) (by omega), ih fun i h1 h2 => h i (by omega) (by omega)]

theorem rd_update {m : ℕ → ℕ} {a n b v : ℕ} (h : b < a ∨ a + n ≤ b) : rd (Function.update m b v) a n = rd m a n :=
  rd_congr fun i h1 h2 => Function.update_of_ne (by omega) ..

theorem wr_outside {m : ℕ → ℕ} {a : ℕ} {l : List ℕ} {b : ℕ} (h : b < a ∨ a + l.length ≤ b) : wr m a l b = m b := by
  induction l generalizing m a with
  | nil => rfl
  | cons w l ih =>
    rw [List.length_cons] at h
    unfold wr
    rw [ih (by omega), Function.update_of_ne (by omega)]

theorem rd_wr {m : ℕ → ℕ} {a : ℕ} {l : List ℕ} : rd (wr m a l) a l.length = l := by
  induction l generalizing m a with
  | nil => rfl
  | cons w l ih =>
    rw [List.length_cons]
    unfold rd wr
    rw [ih, wr_outside (by omega), Function.update_self]

theorem wr_append {m : ℕ → ℕ} {a : ℕ} {l k : List ℕ} : wr m a (l ++ k) = wr (wr m a l) (a + l.length) k := by
  induction l generalizing m a with
  | nil => rfl
  | cons w l ih =>
    show wr (Function.update m a w) (a + 1) (l ++ k) = wr (wr (Function.update m a w) (a + 1) l) (a + (l.length + 1)) k
    rw [ih, Nat.add_right_comm, Nat.add_assoc]

theorem words_rd {m : ℕ → ℕ} (hm : ∀ i, m i < B64) (a n : ℕ) : Words (rd m a n) := by
  induction n generalizing a with
  | zero => exact words_nil
  | succ n ih => unfold rd; exact words_cons.mpr ⟨hm a, ih _⟩

theorem wr_lt {m : ℕ → ℕ} (hm : ∀ i, m i < B64) {l : List ℕ} (hl : Words l) (a i : ℕ) : wr m a l i < B64 := by
  induction l generalizing m a with
  | nil => exact hm i
  | cons w l ih =>
    obtain ⟨hw, hl⟩ := words_cons.mp hl
    unfold wr
    refine ih (fun j => ?_) hl _
    by_cases h : j = a
    · rw [h, Function.update_self]; exact hw
    · rw [Function.update_of_ne h]; exact hm j

/-- the output does not cover operand words that are still to be read: it starts at or before the operand, or after it -/
def Fwd (o x n : ℕ) : Prop := o ≤ x ∨ x + n ≤ o

theorem addN_spec {n : ℕ} : ∀ {m : ℕ → ℕ} {c o x y : ℕ}, Fwd o x n → Fwd o y n →
    addN n m c o x y = (wr m o (addNLoop (rd m x n) (rd m y n) c).1, (addNLoop (rd m x n) (rd m y n) c).2) := by
  induction n with
  | zero => intros; rfl
  | succ n ih =>
    intro m c o x y hx hy
    unfold Fwd at hx hy
    have ih' : ∀ v c, addN n (Function.update m o v) c (o + 1) (x + 1) (y + 1) =
        (wr (Function.update m o v) (o + 1) (addNLoop (rd m (x + 1) n) (rd m (y + 1) n) c).1,
          (addNLoop (rd m (x + 1) n) (rd m (y + 1) n) c).2) := fun v c => by
      rw [ih (by unfold Fwd; omega) (by unfold Fwd; omega), rd_update (by omega), rd_update (by omega)]
    unfold addN rd addNLoop
    dsimp only
    split_ifs <;> rw [ih'] <;> rfl

theorem subN_spec {n : ℕ} : ∀ {m : ℕ → ℕ} {c o x y : ℕ}, Fwd o x n → Fwd o y n →
    subN n m c o x y = (wr m o (subNLoop (rd m x n) (rd m y n) c).1, (subNLoop (rd m x n) (rd m y n) c).2) := by
  induction n with
  | zero => intros; rfl
  | succ n ih =>
    intro m c o x y hx hy
    unfold Fwd at hx hy
    have ih' : ∀ v c, subN n (Function.update m o v) c (o + 1) (x + 1) (y + 1) =
        (wr (Function.update m o v) (o + 1) (subNLoop (rd m (x + 1) n) (rd m (y + 1) n) c).1,
          (subNLoop (rd m (x + 1) n) (rd m (y + 1) n) c).2) := fun v c => by
      rw [ih (by unfold Fwd; omega) (by unfold Fwd; omega), rd_update (by omega), rd_update (by omega)]
    unfold subN rd subNLoop
    dsimp only
    split_ifs <;> rw [ih'] <;> rfl

theorem add1Loop_spec {n : ℕ} : ∀ {m : ℕ → ℕ} {c o x : ℕ}, Fwd o x n →
    add1Loop n m c o x = (wr m o (Verif.add1Loop (rd m x n) c).1, (Verif.add1Loop (rd m x n) c).2) := by
  induction n with
  | zero => intros; rfl
  | succ n ih =>
    intro m c o x hx
    unfold Fwd at hx
    have ih' : ∀ v c, add1Loop n (Function.update m o v) c (o + 1) (x + 1) =
        (wr (Function.update m o v) (o + 1) (Verif.add1Loop (rd m (x + 1) n) c).1,
          (Verif.add1Loop (rd m (x + 1) n) c).2) := fun v c => by
      rw [ih (by unfold Fwd; omega), rd_update (by omega)]
    unfold add1Loop rd Verif.add1Loop
    dsimp only
    split_ifs <;> rw [ih'] <;> rfl

theorem add1_spec {n : ℕ} {m : ℕ → ℕ} {o x y : ℕ} (h : Fwd o x (n + 1)) :
    add1 n m o x y = (wr m o (Verif.add1 (rd m x (n + 1)) y).1, (Verif.add1 (rd m x (n + 1)) y).2) := by
  unfold Fwd at h
  unfold add1 rd Verif.add1
  dsimp only
  rw [add1Loop_spec (by unfold Fwd; omega), rd_update (by omega)]
  rfl

theorem sub1Loop_spec {n : ℕ} : ∀ {m : ℕ → ℕ} {c o x : ℕ}, Fwd o x n →
    sub1Loop n m c o x = (wr m o (Verif.sub1Loop (rd m x n) c).1, (Verif.sub1Loop (rd m x n) c).2) := by
  induction n with
  | zero => intros; rfl
  | succ n ih =>
    intro m c o x hx
    unfold Fwd at hx
    have ih' : ∀ v c, sub1Loop n (Function.update m o v) c (o + 1) (x + 1) =
        (wr (Function.update m o v) (o + 1) (Verif.sub1Loop (rd m (x + 1) n) c).1,
          (Verif.sub1Loop (rd m (x + 1) n) c).2) := fun v c => by
      rw [ih (by unfold Fwd; omega), rd_update (by omega)]
    unfold sub1Loop rd Verif.sub1Loop
    dsimp only
    split_ifs <;> rw [ih'] <;> rfl

theorem sub1_spec {n : ℕ} {m : ℕ → ℕ} {o x y : ℕ} (h : Fwd o x (n + 1)) :
    sub1 n m o x y = (wr m o (Verif.sub1 (rd m x (n + 1)) y).1, (Verif.sub1 (rd m x (n + 1)) y).2) := by
  unfold Fwd at h
  unfold sub1 rd Verif.sub1
  dsimp only
  rw [sub1Loop_spec (by unfold Fwd; omega), rd_update (by omega)]
  rfl

theorem mul1_spec {n : ℕ} : ∀ {m : ℕ → ℕ} {H o x y : ℕ}, Fwd o x n →
    mul1 n m H o x y = wr m o (mul1Loop (rd m x n) y H) := by
  induction n with
  | zero => intros; rfl
  | succ n ih =>
    intro m H o x y hx
    unfold Fwd at hx
    unfold mul1 rd mul1Loop
    dsimp only
    rw [ih (by unfold Fwd; omega), rd_update (by omega), Function.update_self]
    rfl

theorem rd_succ' (m : ℕ → ℕ) (a n : ℕ) : rd m a (n + 1) = rd m a n ++ [m (a + n)] := by
  induction n generalizing a with
  | zero => rfl
  | succ n ih =>
    rw [rd, ih, show rd m a (n + 1) = m a :: rd m (a + 1) n from rfl, List.cons_append, Nat.add_right_comm, Nat.add_assoc]

/-- division from the top with incoming remainder r -/
theorem div1_append (l : List ℕ) (w y r : ℕ) (f : List ℕ → ℕ → List ℕ × ℕ)
    (h0 : ∀ r, f [] r = ([], r)) (hc : ∀ x xs r, f (x :: xs) r =
      ((((f xs r).2 * B64 + x) / y) % B64 :: (f xs r).1, ((f xs r).2 * B64 + x) % y)) :
    f (l ++ [w]) r = ((f l ((r * B64 + w) % y)).1 ++ [(r * B64 + w) / y % B64], (f l ((r * B64 + w) % y)).2) := by
  induction l with
  | nil => rw [List.nil_append, hc, h0, h0]; rfl
  | cons x l ih => rw [List.cons_append, hc, ih, hc]; rfl

/-- `div1` with a remainder coming in from above -/
def div1R (y : ℕ) : List ℕ → ℕ → List ℕ × ℕ
  | [], r => ([], r)
  | x :: xs, r => (((div1R y xs r).2 * B64 + x) / y % B64 :: (div1R y xs r).1, ((div1R y xs r).2 * B64 + x) % y)

theorem div1R_zero (y : ℕ) (l : List ℕ) : div1R y l 0 = Verif.div1 l y := by
  induction l with
  | nil => rfl
  | cons x l ih => unfold div1R Verif.div1; rw [ih]

theorem length_div1R (y : ℕ) (l : List ℕ) (r : ℕ) : (div1R y l r).1.length = l.length := by
  induction l with
  | nil => rfl
  | cons x l ih => unfold div1R; rw [List.length_cons, ih, List.length_cons]

theorem wr_comm {m : ℕ → ℕ} {a b v : ℕ} {l : List ℕ} (h : b < a ∨ a + l.length ≤ b) :
    wr (Function.update m b v) a l = Function.update (wr m a l) b v := by
  induction l generalizing m a with
  | nil => rfl
  | cons w l ih =>
    rw [List.length_cons] at h
    unfold wr
    rw [Function.update_comm (by omega), ih (by omega)]

theorem div1_specR {n : ℕ} : ∀ {m : ℕ → ℕ} {r q x y : ℕ}, (x ≤ q ∨ q + n ≤ x) →
    div1 n m r q x y = (wr m q (div1R y (rd m x n) r).1, (div1R y (rd m x n) r).2) := by
  induction n with
  | zero => intros; rfl
  | succ n ih =>
    intro m r q x y h
    rw [rd_succ', div1_append _ _ _ _ (div1R y) (fun _ => rfl) (fun _ _ _ => rfl)]
    rw [div1_succ, ih (by omega), rd_update (by omega), wr_append, wr_comm (by rw [length_div1R, length_rd]; omega), length_div1R, length_rd]
    rfl

theorem div1_spec {n : ℕ} {m : ℕ → ℕ} {q x y : ℕ} (h : x ≤ q ∨ q + n ≤ x) :
    div1 n m 0 q x y = (wr m q (Verif.div1 (rd m x n) y).1, (Verif.div1 (rd m x n) y).2) := by
  rw [div1_specR h, div1R_zero]

theorem foldl_mod (n : ℕ) (m : ℕ → ℕ) (r x y : ℕ) :
    (List.range n).reverse.foldl (fun r i => rem r (m (x + i)) y) r = (div1R y (rd m x n) r).2 := by
  induction n generalizing r with
  | zero => rfl
  | succ n ih =>
    rw [List.range_succ, List.reverse_append, List.reverse_singleton, List.singleton_append, List.foldl_cons, ih, rd_succ',
      div1_append _ _ _ _ (div1R y) (fun _ => rfl) (fun _ _ _ => rfl), rem]

theorem mod1_spec {n : ℕ} {m : ℕ → ℕ} {x y : ℕ} : mod1 n m x y = Verif.mod1 (rd m x n) y := by
  unfold mod1
  rw [foldl_mod]
  generalize rd m x n = l
  induction l with
  | nil => rfl
  | cons w l ih => unfold div1R Verif.mod1; rw [ih]

end Mem
end Verif
