import Verif.Vuint.ProgLemmas

/-!
Property theorems C01-C07: `mie::Vuint` arithmetic.

Vocabulary of the statements: a `Vuint` is its word list, least significant word first; `val` is its
numeric value; `WF` (Spec.lean) says 1 to 9 words below 2^64 without a superfluous leading zero
word; `Res.exit` is the program exit of the library's capacity and range checks.
-/

namespace Verif
open Vuint

/-- **C01** `x + y`: the exact sum if it fits 576 bits, otherwise the program exits. -/
theorem C01_add {x y : List ℕ} (hx : WF x) (hy : WF y) :
    (val x + val y < 2 ^ 576 → ∃ z, add x y = .ok z ∧ WF z ∧ val z = val x + val y) ∧
    (2 ^ 576 ≤ val x + val y → add x y = .exit) := by
  have h := add_spec hx hy
  rwa [show B64 ^ 9 = 2 ^ 576 from pow_B64 9] at h

/-- **C01** `x + (uint32_t) y`. -/
theorem C01_add32 {x : List ℕ} {y : ℕ} (hx : WF x) (hy : y < 2 ^ 32) :
    (val x + y < 2 ^ 576 → ∃ z, add32 x y = .ok z ∧ WF z ∧ val z = val x + y) ∧
    (2 ^ 576 ≤ val x + y → add32 x y = .exit) := by
  have h := add32_spec hx hy
  rwa [show B64 ^ 9 = 2 ^ 576 from pow_B64 9] at h

-- a carry through the whole vector, and the overflow of the buffer
example : WF [2 ^ 64 - 1, 2 ^ 64 - 1] ∧ WF [1] ∧
    val [2 ^ 64 - 1, 2 ^ 64 - 1] + val [1] < 2 ^ 576 := by decide +kernel
example : add [2 ^ 64 - 1, 2 ^ 64 - 1] [1] = .ok [0, 0, 1] := by decide +kernel
example : WF (List.replicate 9 (2 ^ 64 - 1)) ∧
    2 ^ 576 ≤ val (List.replicate 9 (2 ^ 64 - 1)) + val [1] := by decide +kernel

/-- **C02** `x - y`: exact when `y ≤ x`; otherwise the program exits if `y` is not longer than `x`,
and the precondition (an assert compiled out of release builds) is violated if it is longer. -/
theorem C02_sub {x y : List ℕ} (hx : WF x) (hy : WF y) :
    (val y ≤ val x → ∃ z, sub x y = .ok z ∧ WF z ∧ val z = val x - val y) ∧
    (val x < val y → y.length ≤ x.length → sub x y = .exit) ∧
    (x.length < y.length → sub x y = .ub) :=
  sub_spec hx hy

example : WF [0, 0, 1] ∧ WF [1] ∧ val [1] ≤ val [0, 0, 1] := by decide +kernel
example : sub [0, 0, 1] [1] = .ok [2 ^ 64 - 1, 2 ^ 64 - 1] := by decide +kernel
example : WF [5] ∧ WF [6] ∧ sub [5] [6] = .exit := by decide +kernel
example : WF [5] ∧ WF [0, 1] ∧ sub [5] [0, 1] = .ub := by decide +kernel

/-- **C03** `x * y`: exact when the word counts add up to at most 9, otherwise the program exits. -/
theorem C03_mul {x y : List ℕ} (hx : WF x) (hy : WF y) :
    (x.length + y.length ≤ 9 → ∃ z, mul x y = .ok z ∧ WF z ∧ val z = val x * val y) ∧
    (9 < x.length + y.length → mul x y = .exit) :=
  Vuint.mul_spec hx hy

/-- **C03** product with one word. -/
theorem C03_mulUnit {x : List ℕ} {y : ℕ} (hx : WF x) (hy : y < 2 ^ 64) :
    (x.length ≤ 8 → ∃ z, mulUnit x y = .ok z ∧ WF z ∧ val z = val x * y) ∧
    (x.length = 9 → mulUnit x y = .exit) := by
  have h := mulUnit_spec hx hy
  exact ⟨fun h' => h.1 (by omega), fun h' => h.2 (by omega)⟩

example : WF [2 ^ 64 - 1, 2 ^ 64 - 1] ∧
    mul [2 ^ 64 - 1, 2 ^ 64 - 1] [2 ^ 64 - 1, 2 ^ 64 - 1]
      = .ok [1, 0, 2 ^ 64 - 2, 2 ^ 64 - 1] := by decide +kernel
example : WF (List.replicate 5 1) ∧ mul (List.replicate 5 1) (List.replicate 5 1) = .exit := by
  decide +kernel

/-- **C04** `div(q, r, x, y)`: floor quotient and remainder.  Division by zero is reported by the
return value `false` (`none`).  For a divisor of 9 words and a larger dividend the work buffer of
`yn + 1` words does not fit and the program exits.  Neither divergence nor undefined behaviour (a
lost borrow, an out-of-range double to integer conversion) occurs. -/
theorem C04_div {x y : List ℕ} (hx : WF x) (hy : WF y) :
    (val y = 0 → div x y = .ok none) ∧
    (val y ≠ 0 → (val y < 2 ^ 512 ∨ val x ≤ val y) → ∃ q r, div x y = .ok (some (q, r)) ∧
      WF q ∧ WF r ∧ val x = val q * val y + val r ∧ val r < val y) ∧
    (2 ^ 512 ≤ val y → val y < val x → div x y = .exit) := by
  have h := Vuint.div_spec hx hy
  rw [show B64 ^ 8 = 2 ^ 512 from pow_B64 8] at h
  refine ⟨h.1, fun h0 hor => ?_, h.2.2⟩
  obtain ⟨q, r, e, wq, wr, vq, vr⟩ := h.2.1 h0 hor
  refine ⟨q, r, e, wq, wr, ?_, ?_⟩
  · rw [vq, vr, Nat.mul_comm]; exact (Nat.div_add_mod _ _).symm
  · rw [vr]; exact Nat.mod_lt _ (Nat.pos_of_ne_zero h0)

-- a divisor whose rounded-up approximation is the tie case of the double estimate
example : WF [1, 2 ^ 64 - 1] ∧ WF [2 ^ 64 - 1, 0, 2 ^ 63, 1] ∧ val [1, 2 ^ 64 - 1] ≠ 0 ∧
    val [1, 2 ^ 64 - 1] < 2 ^ 512 := by decide +kernel
example : div [2 ^ 64 - 1, 0, 2 ^ 63, 1] [1, 2 ^ 64 - 1]
    = .ok (some ([2 ^ 63 + 1, 1], [2 ^ 63 - 2, 2 ^ 63])) := by decide +kernel
example : WF (List.replicate 8 0 ++ [1]) ∧ 2 ^ 512 ≤ val (List.replicate 8 0 ++ [1]) ∧
    val (List.replicate 8 0 ++ [1]) < val (List.replicate 8 0 ++ [2]) := by decide +kernel

/-- **C04** division by one word. -/
theorem C04_div1 {x : List ℕ} {y : ℕ} (hx : WF x) (h0 : y ≠ 0) :
    ∃ q r, divUnit x y = .ok (q, r) ∧ WF q ∧ val x = val q * y + r ∧ r < y := by
  have hpos := Nat.pos_of_ne_zero h0
  obtain ⟨q, r, e, wq, vq, vr⟩ := divUnit_spec hx hpos
  refine ⟨q, r, e, wq, ?_, ?_⟩
  · rw [vq, vr, Nat.mul_comm]; exact (Nat.div_add_mod _ _).symm
  · rw [vr]; exact Nat.mod_lt _ hpos

example : WF [0, 1] ∧ divUnit [0, 1] 3 = .ok ([6148914691236517205], 1) := by decide +kernel

/-- **C05** `x << n`: exact product with 2^n, or the program exits.  For a non-zero value it exits
exactly when the result needs more than 576 bits; a zero is only accepted for `n < 576`. -/
theorem C05_shl {x : List ℕ} (n : ℕ) (hx : WF x) :
    (val x * 2 ^ n < 2 ^ 576 → (val x ≠ 0 ∨ n < 576) →
      ∃ z, shl x n = .ok z ∧ WF z ∧ val z = val x * 2 ^ n) ∧
    (2 ^ 576 ≤ val x * 2 ^ n → shl x n = .exit) ∧
    (val x = 0 → 576 ≤ n → shl x n = .exit) := by
  have h := shl_spec n hx
  rwa [show B64 ^ 9 = 2 ^ 576 from pow_B64 9] at h

/-- **C05** `x >> n` is `⌊x / 2^n⌋`, for every `n`. -/
theorem C05_shr {x : List ℕ} (n : ℕ) (hx : WF x) :
    ∃ z, shr x n = .ok z ∧ WF z ∧ val z = val x / 2 ^ n :=
  shr_spec n hx

example : WF [2 ^ 63 + 1, 3] ∧ shl [2 ^ 63 + 1, 3] 65 = .ok [0, 2, 7] := by decide +kernel
example : WF [2 ^ 63 + 1, 3] ∧ shr [2 ^ 63 + 1, 3] 1 = .ok [2 ^ 63 + 2 ^ 62, 1] := by decide +kernel
example : val [1] * 2 ^ 575 < 2 ^ 576 ∧ 2 ^ 576 ≤ val [1] * 2 ^ 576 := by decide +kernel

/-- **C06** `compare` is the numeric order, and equality is equality of the representation. -/
theorem C06_compare {x y : List ℕ} (hx : WF x) (hy : WF y) :
    (Vuint.compare x y < 0 ↔ val x < val y) ∧ (Vuint.compare x y = 0 ↔ val x = val y) ∧
    (Vuint.compare x y > 0 ↔ val x > val y) ∧ (val x = val y ↔ x = y) := by
  refine ⟨?_, ?_, ?_, fun h => hx.ext hy h, fun h => by rw [h]⟩
  all_goals
    unfold Vuint.compare
    rcases cmp_spec hx hy with ⟨c, hv⟩ | ⟨c, hv⟩ | ⟨c, hv⟩ <;> rw [c] <;> constructor <;> intro h <;>
      omega

/-- **C06** `isZero`. -/
theorem C06_isZero {x : List ℕ} (hx : WF x) : isZero x = true ↔ val x = 0 :=
  isZero_iff hx

example : WF [0, 1] ∧ WF [2 ^ 64 - 1] ∧ Vuint.compare [0, 1] [2 ^ 64 - 1] = 1 := by decide +kernel

/-- **C07** Every finite sequence of operations (`Vuint/Prog.lean`), started with all objects at the
default value 0: a completed run leaves every object well formed. -/
theorem C07_wellformed (ops : List VOp) (hargs : ∀ o ∈ ops, o.argsOk) {s' : VState}
    (h : runV ops (fun _ => [0]) = .ok s') : ∀ i, WF (s' i) := by
  have gen : ∀ (ops : List VOp) (s : VState), (∀ i, WF (s i)) → (∀ o ∈ ops, o.argsOk) →
      runV ops s = .ok s' → ∀ i, WF (s' i) := by
    intro ops
    induction ops with
    | nil => intro s hs _ e; cases e; exact hs
    | cons o os ih =>
      intro s hs ho e
      unfold runV at e
      cases hx : o.exec s with
      | ok s1 =>
        rw [hx] at e
        exact ih s1 (exec_wf hs o (ho o (by simp)) hx) (fun o' ho' => ho o' (by simp [ho'])) e
      | _ => rw [hx] at e; cases e
  exact gen ops _ (fun _ => by decide) hargs h

/-- **C07** A sequence that never subtracts a larger number and never divides by the word 0 either
exits at a capacity check, or computes exactly the numbers that the same sequence computes on the
natural numbers. -/
theorem C07_values (ops : List VOp) (hargs : ∀ o ∈ ops, o.argsOk)
    (hdef : definedN ops (fun _ => 0)) :
    runV ops (fun _ => [0]) = .exit ∨
    ∃ s', runV ops (fun _ => [0]) = .ok s' ∧
      ∀ i, WF (s' i) ∧ val (s' i) = runN ops (fun _ => 0) i :=
  runV_spec ops (fun _ => ⟨by decide, rfl⟩) hargs hdef

/-- a program with aliased operands: (2^64)^2 mod 10 and back -/
def demoProg : List VOp :=
  [.setWords 0 [0, 1], .mul 0 0 0, .setU 1 10, .div 2 3 0 1, .mul 2 2 1, .add 2 2 3, .sub 2 2 0,
   .shl 1 1 100, .shr 1 1 98, .add32 1 1 7]

example : (∀ o ∈ demoProg, o.argsOk) ∧ definedN demoProg (fun _ => 0) := by
  refine ⟨?_, ?_⟩
  · intro o ho
    simp only [demoProg, List.mem_cons, List.not_mem_nil, or_false] at ho
    rcases ho with rfl | rfl | rfl | rfl | rfl | rfl | rfl | rfl | rfl | rfl <;>
      simp [VOp.argsOk]
  · simp [demoProg, definedN, VOp.defined, VOp.spec, NState.put, digitsVal]
example : ∃ s, runV demoProg (fun _ => [0]) = .ok s := by
  have : (match runV demoProg (fun _ => [0]) with | .ok _ => true | _ => false) = true := by
    decide +kernel
  revert this
  cases runV demoProg (fun _ => [0]) <;> simp

end Verif
