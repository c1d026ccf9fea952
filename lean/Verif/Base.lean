import Mathlib.Tactic.Ring
import Mathlib.Tactic.Linarith
import Mathlib.Tactic.Positivity
import Mathlib.Tactic.NormNum
import Mathlib.Algebra.Order.Ring.Nat
import Mathlib.Data.Nat.Basic

/-!
Shared vocabulary: outcomes of C++ calls and words.
-/

namespace Verif

/-- Outcome of a C++ call.  `exit` is `local::errExit` / `exit(1)` (zm.h:109-113), `throw` a C++
exception, `ub` a violated `assert` or undefined behaviour (the release build compiles asserts out,
common.mk:12 `-DNDEBUG`), `diverge` a loop that ran out of the fuel given by the model. -/
inductive Res (α : Type) where
  | ok (a : α)
  | exit
  | throw
  | ub
  | diverge
  deriving DecidableEq, Repr

namespace Res

def bind {α β : Type} : Res α → (α → Res β) → Res β
  | ok a, f => f a
  | exit, _ => exit
  | throw, _ => throw
  | ub, _ => ub
  | diverge, _ => diverge

instance : Monad Res where
  pure := ok
  bind := bind

variable {α β : Type}

@[simp] theorem bind_ok (a : α) (f : α → Res β) : (ok a >>= f) = f a := rfl
@[simp] theorem bind_exit (f : α → Res β) : (Res.exit >>= f) = Res.exit := rfl
@[simp] theorem bind_throw (f : α → Res β) : (Res.throw >>= f) = Res.throw := rfl
@[simp] theorem bind_ub (f : α → Res β) : (Res.ub >>= f) = Res.ub := rfl
@[simp] theorem bind_diverge (f : α → Res β) : (Res.diverge >>= f) = Res.diverge := rfl
@[simp] theorem pure_eq (a : α) : (pure a : Res α) = ok a := rfl

end Res

-- `B64` = 2^64, the number of values of one `Unit` (zm.h:64-65: `typedef uint64_t Unit`).
scoped notation "B64" => (18446744073709551616 : ℕ)

/-- Numeric value of a little-endian word vector. -/
def val : List ℕ → ℕ
  | [] => 0
  | w :: ws => w + B64 * val ws

/-- All entries are 64-bit words. -/
def Words (x : List ℕ) : Prop := ∀ w ∈ x, w < B64

instance (x : List ℕ) : Decidable (Words x) := by unfold Words; infer_instance

@[simp] theorem val_nil : val [] = 0 := rfl
@[simp] theorem val_cons (w : ℕ) (ws : List ℕ) : val (w :: ws) = w + B64 * val ws := rfl

theorem B64_pos : 0 < B64 := by norm_num

@[simp] theorem words_nil : Words [] := by simp [Words]
@[simp] theorem words_cons {w : ℕ} {ws : List ℕ} : Words (w :: ws) ↔ w < B64 ∧ Words ws := by
  simp [Words]
@[simp] theorem words_append {a b : List ℕ} : Words (a ++ b) ↔ Words a ∧ Words b := by
  simp only [Words, List.mem_append]
  constructor
  · intro h; exact ⟨fun w hw => h w (Or.inl hw), fun w hw => h w (Or.inr hw)⟩
  · rintro ⟨h1, h2⟩ w (hw | hw)
    · exact h1 w hw
    · exact h2 w hw

theorem Words.take {x : List ℕ} (h : Words x) (n : ℕ) : Words (x.take n) :=
  fun w hw => h w (List.mem_of_mem_take hw)
theorem Words.drop {x : List ℕ} (h : Words x) (n : ℕ) : Words (x.drop n) :=
  fun w hw => h w (List.mem_of_mem_drop hw)

theorem val_append (a b : List ℕ) : val (a ++ b) = val a + B64 ^ a.length * val b := by
  induction a with
  | nil => simp
  | cons w ws ih => simp only [List.cons_append, val_cons, ih, List.length_cons, pow_succ]; ring

theorem val_lt {x : List ℕ} (h : Words x) : val x < B64 ^ x.length := by
  induction x with
  | nil => simp
  | cons w ws ih =>
    have h' := words_cons.1 h
    have := ih h'.2
    simp only [val_cons, List.length_cons, pow_succ]
    have h1 := h'.1
    have : val ws + 1 ≤ B64 ^ ws.length := this
    calc w + B64 * val ws < B64 + B64 * val ws := by omega
      _ = (val ws + 1) * B64 := by ring
      _ ≤ B64 ^ ws.length * B64 := Nat.mul_le_mul_right _ this

theorem val_take_add_drop (x : List ℕ) (n : ℕ) (hn : n ≤ x.length) :
    val (x.take n) + B64 ^ n * val (x.drop n) = val x := by
  conv_rhs => rw [← List.take_append_drop n x]
  rw [val_append, List.length_take, Nat.min_eq_left hn]

@[simp] theorem val_replicate_zero (n : ℕ) : val (List.replicate n 0) = 0 := by
  induction n with
  | zero => rfl
  | succ n ih => simp [List.replicate_succ, ih]

theorem words_replicate_zero (n : ℕ) : Words (List.replicate n 0) := by
  intro w hw
  rw [List.eq_of_mem_replicate hw]; exact B64_pos

theorem val_inj {x y : List ℕ} (hx : Words x) (hy : Words y) (hl : x.length = y.length)
    (h : val x = val y) : x = y := by
  induction x generalizing y with
  | nil => cases y with
    | nil => rfl
    | cons _ _ => simp at hl
  | cons a as ih =>
    cases y with
    | nil => simp at hl
    | cons b bs =>
      rw [words_cons] at hx hy
      simp only [val_cons] at h
      have hab : a = b := by
        have := congrArg (· % B64) h
        simpa [Nat.add_mul_mod_self_left, Nat.mod_eq_of_lt hx.1, Nat.mod_eq_of_lt hy.1] using this
      subst hab
      have : val as = val bs := by
        have h2 : B64 * val as = B64 * val bs := by omega
        exact Nat.eq_of_mul_eq_mul_left B64_pos h2
      rw [ih hx.2 hy.2 (by simpa using hl) this]

end Verif
