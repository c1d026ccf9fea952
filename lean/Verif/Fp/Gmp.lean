import Verif.Fp.Lemmas
import Mathlib.Data.Nat.Digits.Lemmas

/-!
Conversions between `Fp` buffers and GMP integers, zm2.h:283-297 (the build of common.mk:14 defines `MIE_ATE_USE_GMP`).

GMP is not modelled: an `mpz_class` is an integer.  `mpz_import` and `mpz_export` are taken from the GMP manual for the
arguments used here: word order -1 (least significant first), 8-byte words, native byte order, no nail bits.
-/

namespace Verif.Fp

/-- `mpz_import(y, N, -1, sizeof(Unit), 0, 0, v)` as called at zm2.h:286: word i has weight 2^(64 i); the result is not negative. -/
def mpzImport : List ℕ → ℤ
  | [] => 0
  | w :: ws => w + 2 ^ 64 * mpzImport ws

/-- `mpz_export(v, &size, -1, sizeof(Unit), 0, 0, x)` as called at zm2.h:291: the words of |x| without leading zeros are stored
from v[0] on, `size` is their number (0 for x = 0) and the sign is ignored.  More words than the buffer has: stored out of range. -/
def mpzExport (v : List ℕ) (x : ℤ) : Res (List ℕ × ℕ) :=
  let l := Nat.digits B64 x.natAbs
  if l.length ≤ v.length then .ok (l ++ v.drop l.length, l.length) else .ub

/-- The loop of zm2.h:292-294, `n` passes from index i on. -/
def zeroLoop : ℕ → ℕ → List ℕ → List ℕ
  | 0, _, v => v
  | n + 1, i, v => zeroLoop n (i + 1) (v.set i 0)

/-- `Fp::toMpz`, zm2.h:284-287, on the four words of the buffer -/
def toMpz (x : List ℕ) : ℤ := mpzImport x

/-- `Fp::fromMpz`, zm2.h:288-295; `y` are the four words of the destination before the call. -/
def fromMpz (y : List ℕ) (x : ℤ) : Res (List ℕ) := do
  let r ← mpzExport y x
  pure (zeroLoop (4 - r.2) r.2 r.1)

theorem mpzImport_val (x : List ℕ) : mpzImport x = (val x : ℤ) := by
  induction x with
  | nil => rfl
  | cons w ws ih => simp only [mpzImport, ih, val_cons]; push_cast; norm_num

theorem val_digits (n : ℕ) : val (Nat.digits B64 n) = n := by
  have h : ∀ l : List ℕ, val l = Nat.ofDigits B64 l := by
    intro l
    induction l with
    | nil => rfl
    | cons w ws ih => rw [val_cons, ih, Nat.ofDigits_cons]
  rw [h, Nat.ofDigits_digits]

theorem words_digits (n : ℕ) : Words (Nat.digits B64 n) := fun _ hw => Nat.digits_lt_base (by norm_num) hw

theorem digits_len (n k : ℕ) : (Nat.digits B64 n).length ≤ k ↔ n < B64 ^ k := Nat.digits_length_le_iff (by norm_num) n

theorem zeroLoop_append (l : List ℕ) : ∀ d : List ℕ, zeroLoop d.length l.length (l ++ d) = l ++ List.replicate d.length 0 := by
  intro d
  induction d generalizing l with
  | nil => rfl
  | cons w ws ih =>
    have e : (l ++ w :: ws).set l.length 0 = (l ++ [0]) ++ ws := by
      rw [List.set_append_right _ _ (le_refl _)]; simp
    have := ih (l ++ [0])
    rw [List.length_append, List.length_singleton] at this
    rw [List.length_cons, zeroLoop, e, this, List.replicate_succ]; simp

theorem fromMpz_ok {y : List ℕ} (hy : y.length = 4) {x : ℤ} (h : x.natAbs < 2 ^ 256) :
    ∃ v, fromMpz y x = .ok v ∧ v.length = 4 ∧ Words v ∧ val v = x.natAbs := by
  have hl : (Nat.digits B64 x.natAbs).length ≤ 4 := (digits_len _ 4).2 (lt_of_lt_of_eq h (by norm_num))
  have hd := zeroLoop_append (Nat.digits B64 x.natAbs) (y.drop (Nat.digits B64 x.natAbs).length)
  rw [List.length_drop, hy] at hd
  refine ⟨Nat.digits B64 x.natAbs ++ List.replicate (4 - (Nat.digits B64 x.natAbs).length) 0, ?_, ?_, ?_, ?_⟩
  · unfold fromMpz mpzExport
    simp only [hy, hl, if_true, Res.bind_ok, Res.pure_eq, hd]
  · rw [List.length_append, List.length_replicate]; omega
  · exact words_append.2 ⟨words_digits _, words_replicate_zero _⟩
  · rw [val_append, val_digits, val_replicate_zero, Nat.mul_zero, Nat.add_zero]

theorem fromMpz_ub {y : List ℕ} (hy : y.length = 4) {x : ℤ} (h : 2 ^ 256 ≤ x.natAbs) : fromMpz y x = .ub := by
  have hl : ¬ (Nat.digits B64 x.natAbs).length ≤ 4 := by
    rw [digits_len]; exact not_lt.2 (le_trans (by norm_num) h)
  unfold fromMpz mpzExport
  simp only [hy, hl, if_false, Res.bind_ub]

end Verif.Fp
