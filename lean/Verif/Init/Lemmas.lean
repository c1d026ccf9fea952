import Verif.Init.Model
import Verif.Sint.Lemmas
import Verif.Zm.Lemmas
import Verif.Ec.Const

namespace Verif
namespace Init

open Fp

theorem sMul_eq (a b : Sint) : sMul a b = Sint.mulP a b := by
  unfold sMul
  rw [Sint.mul_eq]
  simp only [one_ne_zero, if_false, if_true, OfNat.ofNat_ne_zero, OfNat.ofNat_ne_one]
  rcases Sint.mulP a b <;> simp [Sint.store]

theorem sAdd_eq (a b : Sint) : sAdd a b = Sint.addP a b := by
  unfold sAdd
  rw [Sint.add_eq]
  simp only [one_ne_zero, if_false, if_true, OfNat.ofNat_ne_zero, OfNat.ofNat_ne_one]
  rcases Sint.addP a b <;> simp [Sint.store]

theorem length_le {x : List ℕ} (hx : WF x) {k : ℕ} (hk : 0 < k) (h : val x < B64 ^ k) : x.length ≤ k := by
  by_contra hc
  have h1 := hx.val_ge (by omega)
  have : B64 ^ k ≤ B64 ^ (x.length - 1) := Nat.pow_le_pow_right B64_pos (by omega)
  omega

theorem natAbs_toInt (x : Sint) : (Sint.toInt x).natAbs = val x.v := by unfold Sint.toInt; split <;> omega

theorem ofInt_spec {c : ℤ} (h : c.natAbs < 2 ^ 31) : ∃ z, Sint.ofInt c = .ok z ∧ WF z.v ∧ Sint.toInt z = c := by
  refine ⟨⟨Vuint.ofUnit c.natAbs, c < 0⟩, by unfold Sint.ofInt; rw [if_pos ⟨by omega, by omega⟩],
    Vuint.wf_ofUnit (by omega), ?_⟩
  unfold Sint.toInt
  dsimp only
  rw [Vuint.val_ofUnit]
  by_cases hc : c < 0
  · rw [if_pos (by simpa using hc)]; omega
  · rw [if_neg (by simpa using hc)]; omega

/-- one Horner step stays inside the capacity -/
theorem horner_spec {acc x : Sint} {c : ℤ} (k : ℕ) (hk : 0 < k) (hk' : k ≤ 6) (wa : WF acc.v) (wx : WF x.v)
    (ha : (Sint.toInt acc).natAbs < 2 ^ (64 * k - 32)) (hx : (Sint.toInt x).natAbs < 2 ^ 63) (hc : c.natAbs < 2 ^ 31) :
    ∃ z, horner acc x c = .ok z ∧ WF z.v ∧ Sint.toInt z = Sint.toInt acc * Sint.toInt x + c ∧
      (Sint.toInt z).natAbs < 2 ^ (64 * (k + 1) - 32) := by
  have e64 : ∀ j : ℕ, B64 ^ j = 2 ^ (64 * j) := fun j => by rw [pow_mul]; rfl
  have la : acc.v.length ≤ k := length_le wa hk (by
    rw [e64, ← natAbs_toInt]; exact lt_of_lt_of_le ha (Nat.pow_le_pow_right (by norm_num) (by omega)))
  have lx : x.v.length ≤ 1 := length_le wx one_pos (by rw [← natAbs_toInt]; norm_num; omega)
  obtain ⟨t, et, wt, vt⟩ := (Sint.mulP_spec wa wx).1 (by omega)
  obtain ⟨d, ed, wd, vd⟩ := ofInt_spec hc
  have hb : (Sint.toInt t + Sint.toInt d).natAbs < 2 ^ (64 * (k + 1) - 32) := by
    have h1 : (Sint.toInt t).natAbs ≤ 2 ^ (64 * k - 32) * 2 ^ 63 := by
      rw [vt, Int.natAbs_mul]; exact Nat.mul_le_mul ha.le hx.le
    have h2 : (2 : ℕ) ^ (64 * (k + 1) - 32) = 2 * (2 ^ (64 * k - 32) * 2 ^ 63) := by
      rw [← pow_add, ← pow_succ']; congr 1; omega
    have h3 : (2 : ℕ) ^ 31 ≤ 2 ^ (64 * k - 32) * 2 ^ 63 := by
      rw [← pow_add]; exact Nat.pow_le_pow_right (by norm_num) (by omega)
    rw [h2, vd]
    generalize 2 ^ (64 * k - 32) * 2 ^ 63 = A at *
    omega
  obtain ⟨z, ez, wz, vz⟩ := (Sint.addP_spec wt wd).1 (lt_of_lt_of_le hb (by
    rw [e64]; exact Nat.pow_le_pow_right (by norm_num) (by omega)))
  refine ⟨z, ?_, wz, by rw [vz, vt, vd], by rw [vz]; exact hb⟩
  unfold horner
  rw [sMul_eq, et, Res.bind_ok, ed, Res.bind_ok, sAdd_eq, ez]

theorem eval_spec {x : Sint} {c0 c1 c2 c3 c4 : ℤ} (wx : WF x.v) (hx : (Sint.toInt x).natAbs < 2 ^ 63) (h0 : c0.natAbs < 2 ^ 31)
    (h1 : c1.natAbs < 2 ^ 31) (h2 : c2.natAbs < 2 ^ 31) (h3 : c3.natAbs < 2 ^ 31) (h4 : c4.natAbs < 2 ^ 31) :
    ∃ y, eval x c0 c1 c2 c3 c4 = .ok y ∧ WF y ∧ (val y : ℤ) =
      |c0 + c1 * Sint.toInt x + c2 * Sint.toInt x ^ 2 + c3 * Sint.toInt x ^ 3 + c4 * Sint.toInt x ^ 4| := by
  obtain ⟨k, ek, wk, vk⟩ := ofInt_spec h4
  obtain ⟨a, ea, wa, va, ba⟩ := horner_spec (acc := k) 1 (by norm_num) (by norm_num) wk wx (by rw [vk]; norm_num; omega) hx h3
  obtain ⟨b, eb, wb, vb, bb⟩ := horner_spec (acc := a) 2 (by norm_num) (by norm_num) wa wx ba hx h2
  obtain ⟨c, ec, wc, vc, bc⟩ := horner_spec (acc := b) 3 (by norm_num) (by norm_num) wb wx bb hx h1
  obtain ⟨d, ed, wd, vd, bd⟩ := horner_spec (acc := c) 4 (by norm_num) (by norm_num) wc wx bc hx h0
  refine ⟨d.v, ?_, wd, ?_⟩
  · unfold eval
    rw [ek, Res.bind_ok, ea, Res.bind_ok, eb, Res.bind_ok, ec, Res.bind_ok, ed]; rfl
  · rw [← natAbs_toInt, Int.natCast_natAbs, vd, vc, vb, va, vk]
    congr 1; ring

theorem invLoop_get : ∀ (n t : ℕ) (acc : List ℕ) (k : ℕ), k < n → (invLoop n t acc)[k]? = some (dblIter (n - 1 - k) t) := by
  have len : ∀ (n t : ℕ) (acc : List ℕ), ∃ l, invLoop n t acc = l ++ acc ∧ l.length = n := by
    intro n
    induction n with
    | zero => exact fun t acc => ⟨[], rfl, rfl⟩
    | succ n ih =>
      intro t acc
      obtain ⟨l, e, hl⟩ := ih (Fp.add t t) (t :: acc)
      exact ⟨l ++ [t], by rw [invLoop, e]; simp, by simp [hl]⟩
  intro n
  induction n with
  | zero => intro t acc k h; omega
  | succ n ih =>
    intro t acc k h
    rw [invLoop]
    by_cases hk : k < n
    · rw [ih _ _ _ hk, show n + 1 - 1 - k = (n - 1 - k) + 1 from by omega, dblIter]
    · obtain ⟨l, e, hl⟩ := len n (Fp.add t t) (t :: acc)
      rw [e, List.getElem?_append_right (by omega), show k - l.length = 0 from by omega, show n + 1 - 1 - k = 0 from by omega]
      rfl

end Init
end Verif
