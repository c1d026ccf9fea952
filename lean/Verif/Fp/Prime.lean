import Verif.Fp.Word
import Mathlib.FieldTheory.Finite.Basic
import Mathlib.Data.ZMod.Units
import Mathlib.Tactic.NormNum.Prime

/-! Primality of the field characteristic and of the group order (Pocklington certificates). -/

namespace Verif

/-- `a ^ e % n` by repeated squaring over `fuel` bits. -/
def powMod (n : ℕ) : ℕ → ℕ → ℕ → ℕ
  | 0, _, _ => 1 % n
  | f + 1, a, e =>
    let h := powMod n f (a * a % n) (e / 2)
    if e % 2 = 0 then h else a * h % n

theorem powMod_eq (n f : ℕ) : ∀ a e, e < 2 ^ f → powMod n f a e = a ^ e % n := by
  induction f with
  | zero => intro a e h; have : e = 0 := by simpa using h
            subst this; simp [powMod]
  | succ f ih =>
    intro a e h
    have h2 : e / 2 < 2 ^ f := by rw [pow_succ] at h; omega
    have hs : (a * a % n) ^ (e / 2) % n = (a * a) ^ (e / 2) % n := by
      rw [← Nat.pow_mod]
    have hd := Nat.div_add_mod e 2
    unfold powMod
    dsimp only
    rw [ih _ _ h2, hs]
    split
    · rename_i h0
      rw [← pow_two, ← pow_mul]
      congr 2; omega
    · rename_i h0
      have h1 : e % 2 = 1 := by omega
      rw [Nat.mul_mod, Nat.mod_mod, ← Nat.mul_mod, ← pow_two, ← pow_mul, ← pow_succ']
      congr 2; omega

/-- Pocklington's criterion with one base. -/
theorem pocklington {N F : ℕ} (a : ℕ) (hN : 1 < N) (hF : F ∣ N - 1) (hFF : N ≤ F * F)
    (h1 : a ^ (N - 1) % N = 1)
    (h2 : ∀ q, q.Prime → q ∣ F → Nat.Coprime (a ^ ((N - 1) / q) % N + (N - 1)) N) : N.Prime := by
  by_contra hnp
  have hl := Nat.minFac_prime (n := N) (by omega)
  have hle : N.minFac ^ 2 ≤ N := Nat.minFac_sq_le_self (by omega) hnp
  have hdvd := Nat.minFac_dvd N
  generalize N.minFac = l at hl hle hdvd
  have := Fact.mk hl
  have cast_mod : ∀ x : ℕ, ((x % N : ℕ) : ZMod l) = (x : ZMod l) := by
    intro x
    rw [ZMod.natCast_eq_natCast_iff]
    exact (Nat.mod_modEq x N).of_dvd hdvd
  have ha1 : (a : ZMod l) ^ (N - 1) = 1 := by
    have := cast_mod (a ^ (N - 1))
    rw [h1] at this
    push_cast at this
    exact this.symm
  have hd : orderOf (a : ZMod l) ∣ N - 1 := orderOf_dvd_of_pow_eq_one ha1
  have hdpos : 0 < orderOf (a : ZMod l) := by
    rcases Nat.eq_zero_or_pos (orderOf (a : ZMod l)) with h | h
    · rw [h] at hd; have := Nat.eq_zero_of_zero_dvd hd; omega
    · exact h
  obtain ⟨m, hm⟩ := hd
  have hcop : Nat.Coprime F m := by
    rw [Nat.coprime_iff_gcd_eq_one]
    by_contra hg
    obtain ⟨q, hq, hqg⟩ := Nat.exists_prime_and_dvd hg
    have hqF := hqg.trans (Nat.gcd_dvd_left F m)
    have hqm := hqg.trans (Nat.gcd_dvd_right F m)
    obtain ⟨m', rfl⟩ := hqm
    have hdiv : (N - 1) / q = orderOf (a : ZMod l) * m' := by
      rw [hm]
      rw [show orderOf (a : ZMod l) * (q * m') = q * (orderOf (a : ZMod l) * m') by ring]
      exact Nat.mul_div_cancel_left _ hq.pos
    have hone : (a : ZMod l) ^ ((N - 1) / q) = 1 := by
      rw [hdiv, pow_mul, pow_orderOf_eq_one, one_pow]
    have hc := h2 q hq hqF
    have hz : ((a ^ ((N - 1) / q) % N + (N - 1) : ℕ) : ZMod l) = 0 := by
      rw [Nat.cast_add, cast_mod]
      push_cast
      rw [hone]
      have : ((N : ℕ) : ZMod l) = 0 := (ZMod.natCast_eq_zero_iff N l).2 hdvd
      have h3 : ((1 + (N - 1) : ℕ) : ZMod l) = 0 := by
        rw [show 1 + (N - 1) = N by omega]; exact this
      simpa using h3
    have hl1 := (ZMod.natCast_eq_zero_iff _ l).1 hz
    have := Nat.dvd_gcd hl1 hdvd
    rw [hc] at this
    exact hl.one_lt.ne' (Nat.dvd_one.1 this)
  have hFd : F ∣ orderOf (a : ZMod l) := by
    apply hcop.dvd_of_dvd_mul_right
    rw [← hm]; exact hF
  have hne : (a : ZMod l) ≠ 0 := by
    intro h
    rw [h, zero_pow (by omega)] at ha1
    exact zero_ne_one ha1
  have hlm : orderOf (a : ZMod l) ∣ l - 1 := ZMod.orderOf_dvd_card_sub_one hne
  have hle2 : F ≤ l - 1 := Nat.le_of_dvd (by have := hl.one_lt; omega) (hFd.trans hlm)
  have hl1 := hl.one_lt
  have : F * F ≤ (l - 1) * (l - 1) := Nat.mul_le_mul hle2 hle2
  have h4 : (l - 1) * (l - 1) < l ^ 2 := by
    rw [pow_two]; exact Nat.mul_lt_mul'' (by omega) (by omega)
  omega

/-- Checkable form: `qs` are the (not necessarily distinct) prime factors of F. -/
def pockCheck (N a : ℕ) (qs : List ℕ) : Bool :=
  let F := qs.foldr (· * ·) 1
  decide (1 < N ∧ N < 2 ^ 256 ∧ (N - 1) % F = 0 ∧ N ≤ F * F ∧ powMod N 256 a (N - 1) = 1) &&
  qs.all fun q => decide (0 < q ∧ Nat.gcd (powMod N 256 a ((N - 1) / q) + (N - 1)) N = 1)

theorem prime_dvd_foldr {q : ℕ} (hq : q.Prime) (qs : List ℕ) (hqs : ∀ x ∈ qs, x.Prime)
    (h : q ∣ qs.foldr (· * ·) 1) : q ∈ qs := by
  induction qs with
  | nil => simp at h; exact absurd hq (by rw [h]; exact Nat.not_prime_one)
  | cons x xs ih =>
    simp only [List.foldr_cons] at h
    rcases hq.dvd_mul.1 h with h | h
    · rw [(Nat.prime_dvd_prime_iff_eq hq (hqs x (by simp))).1 h]; simp
    · exact List.mem_cons_of_mem _ (ih (fun y hy => hqs y (List.mem_cons_of_mem _ hy)) h)

theorem pockCheck_prime {N a : ℕ} {qs : List ℕ} (hc : pockCheck N a qs = true)
    (hqs : ∀ x ∈ qs, x.Prime) : N.Prime := by
  unfold pockCheck at hc
  dsimp only at hc
  rw [Bool.and_eq_true, decide_eq_true_eq, List.all_eq_true] at hc
  obtain ⟨⟨h1, h2, h3, h4, h5⟩, h6⟩ := hc
  refine pocklington a h1 (Nat.dvd_of_mod_eq_zero h3) h4 ?_ ?_
  · rw [← powMod_eq N 256 a (N - 1) (by omega)]; exact h5
  · intro q hq hqF
    have := h6 q (prime_dvd_foldr hq qs hqs hqF)
    rw [decide_eq_true_eq] at this
    rw [← powMod_eq N 256 a ((N - 1) / q) (lt_of_le_of_lt (Nat.div_le_self _ _) (by omega))]
    exact this.2

/-- The group order r: bn.h:217 `r = 36z^4+36z^3+18z^2+6z+1`. -/
def r : ℕ := 16798108731015832284940804142231733909759579603404752749028378864165570215949

theorem prime_5994341377 : Nat.Prime 5994341377 := by
  refine pockCheck_prime (a := 2) (qs := [4657, 419]) (by decide +kernel) ?_
  intro x hx
  simp only [List.mem_cons, List.not_mem_nil, or_false] at hx
  rcases hx with rfl | rfl
  · norm_num
  · norm_num

theorem prime_2749283 : Nat.Prime 2749283 := by
  refine pockCheck_prime (a := 2) (qs := [1013, 59]) (by decide +kernel) ?_
  intro x hx
  simp only [List.mem_cons, List.not_mem_nil, or_false] at hx
  rcases hx with rfl | rfl
  · norm_num
  · norm_num

theorem prime_65982793 : Nat.Prime 65982793 := by
  refine pockCheck_prime (a := 2) (qs := [2749283]) (by decide +kernel) ?_
  intro x hx
  simp only [List.mem_cons, List.not_mem_nil, or_false] at hx
  rcases hx with rfl
  · exact prime_2749283

theorem prime_15698303 : Nat.Prime 15698303 := by
  refine pockCheck_prime (a := 2) (qs := [29179]) (by decide +kernel) ?_
  intro x hx
  simp only [List.mem_cons, List.not_mem_nil, or_false] at hx
  rcases hx with rfl
  · norm_num

theorem prime_1033337 : Nat.Prime 1033337 := by
  refine pockCheck_prime (a := 2) (qs := [3491]) (by decide +kernel) ?_
  intro x hx
  simp only [List.mem_cons, List.not_mem_nil, or_false] at hx
  rcases hx with rfl
  · norm_num

theorem p_prime : Nat.Prime Fp.p := by
  refine pockCheck_prime (a := 2) (qs := [5994341377, 65982793, 15698303, 1033337, 71693, 641]) (by decide +kernel) ?_
  intro x hx
  simp only [List.mem_cons, List.not_mem_nil, or_false] at hx
  rcases hx with rfl | rfl | rfl | rfl | rfl | rfl
  · exact prime_5994341377
  · exact prime_65982793
  · exact prime_15698303
  · exact prime_1033337
  · norm_num
  · norm_num

theorem prime_1176035613847 : Nat.Prime 1176035613847 := by
  refine pockCheck_prime (a := 2) (qs := [103393, 25969]) (by decide +kernel) ?_
  intro x hx
  simp only [List.mem_cons, List.not_mem_nil, or_false] at hx
  rcases hx with rfl | rfl
  · norm_num
  · norm_num

theorem prime_101148471075752777 : Nat.Prime 101148471075752777 := by
  refine pockCheck_prime (a := 2) (qs := [1176035613847]) (by decide +kernel) ?_
  intro x hx
  simp only [List.mem_cons, List.not_mem_nil, or_false] at hx
  rcases hx with rfl
  · exact prime_1176035613847

theorem r_prime : Nat.Prime r := by
  refine pockCheck_prime (a := 2) (qs := [101148471075752777, 65982793, 15698303, 140977, 16843]) (by decide +kernel) ?_
  intro x hx
  simp only [List.mem_cons, List.not_mem_nil, or_false] at hx
  rcases hx with rfl | rfl | rfl | rfl | rfl
  · exact prime_101148471075752777
  · exact prime_65982793
  · exact prime_15698303
  · norm_num
  · norm_num

instance : Fact Fp.p.Prime := ⟨p_prime⟩

end Verif
