import Verif.Zm.Model
import Verif.Vuint.DivLemmas
import Verif.Vuint.Ops
import Mathlib.Data.ZMod.Basic
import Mathlib.Tactic.LinearCombination

namespace Verif
namespace Zm

open Vuint

theorem compare_lt {x y : List ℕ} (hx : WF x) (hy : WF y) : Vuint.compare x y < 0 ↔ val x < val y := by
  unfold Vuint.compare
  rcases cmp_spec hx hy with ⟨c, h⟩ | ⟨c, h⟩ | ⟨c, h⟩ <;> omega

theorem compare_eq {x y : List ℕ} (hx : WF x) (hy : WF y) : Vuint.compare x y = 0 ↔ val x = val y := by
  unfold Vuint.compare
  rcases cmp_spec hx hy with ⟨c, h⟩ | ⟨c, h⟩ | ⟨c, h⟩ <;> omega

theorem modulo_spec {M x : List ℕ} (hM : WF M) (hx : WF x) :
    (val M ≠ 0 → (val M < B64 ^ 8 ∨ val x ≤ val M) → ∃ z, modulo M x = .ok z ∧ WF z ∧ val z = val x % val M) ∧
    (B64 ^ 8 ≤ val M → val M < val x → modulo M x = .exit) ∧ (val M = 0 → modulo M x = .ok x) := by
  obtain ⟨h1, h2, h3⟩ := div_spec hx hM
  refine ⟨fun h h' => ?_, fun h h' => ?_, fun h => ?_⟩
  · obtain ⟨q, r, e, _, wr, _, vr⟩ := h2 h h'
    exact ⟨r, by unfold modulo; rw [e]; rfl, wr, vr⟩
  · unfold modulo; rw [h3 h h']; rfl
  · unfold modulo; rw [h1 h]; rfl

theorem add_spec {M : List ℕ} {s : Mem} {out x y : ℕ} (hM : WF M) (hx : WF (s x)) (hy : WF (s y)) (lx : val (s x) < val M)
    (ly : val (s y) < val M) :
    (val (s x) + val (s y) < B64 ^ 9 → ∃ z, add M s out x y = .ok (Function.update s out z) ∧ WF z ∧ val z < val M ∧
      (val z : ZMod (val M)) = val (s x) + val (s y)) ∧
    (B64 ^ 9 ≤ val (s x) + val (s y) → add M s out x y = .exit) := by
  obtain ⟨h1, h2⟩ := Vuint.add_spec hx hy
  refine ⟨fun h => ?_, fun h => by unfold add; rw [h2 h]; rfl⟩
  obtain ⟨v, e, wv, vv⟩ := h1 h
  unfold add
  rw [e, Res.bind_ok]
  dsimp only
  rw [Function.update_self]
  by_cases hc : val v < val M
  · rw [if_pos ((compare_lt wv hM).2 hc)]
    exact ⟨v, rfl, wv, hc, by rw [vv]; push_cast; rfl⟩
  · rw [if_neg (by rw [compare_lt wv hM]; exact hc)]
    obtain ⟨z, ez, wz, vz⟩ := (Vuint.sub_spec wv hM).1 (by omega)
    rw [ez, Res.bind_ok, Function.update_idem]
    refine ⟨z, rfl, wz, by omega, ?_⟩
    rw [vz, Nat.cast_sub (by omega), vv, ZMod.natCast_self]
    push_cast; ring

theorem sub_spec {M : List ℕ} {s : Mem} {out x y : ℕ} (hM : WF M) (hx : WF (s x)) (hy : WF (s y)) (lx : val (s x) < val M)
    (ly : val (s y) < val M) :
    ((val (s y) ≤ val (s x) ∨ val (s x) + val M < B64 ^ 9) → ∃ z, sub M s out x y = .ok (Function.update s out z) ∧ WF z ∧
      val z < val M ∧ (val z : ZMod (val M)) = val (s x) - val (s y)) ∧
    (val (s x) < val (s y) → B64 ^ 9 ≤ val (s x) + val M → sub M s out x y = .exit) := by
  obtain ⟨h1, h2⟩ := Vuint.add_spec hx hM
  by_cases hc : val (s x) < val (s y)
  · refine ⟨fun h => ?_, fun _ h => ?_⟩
    · obtain ⟨v, e, wv, vv⟩ := h1 (by omega)
      obtain ⟨z, ez, wz, vz⟩ := (Vuint.sub_spec wv hy).1 (by omega)
      refine ⟨z, ?_, wz, by omega, ?_⟩
      · unfold sub
        rw [if_pos ((compare_lt hx hy).2 hc)]
        by_cases ho : out = y
        · rw [if_neg (by simpa using ho), e, Res.bind_ok, ez]; rfl
        · rw [if_pos ho, e, Res.bind_ok]
          dsimp only
          rw [Function.update_self, Function.update_of_ne (Ne.symm ho), ez, Res.bind_ok, Function.update_idem]; rfl
      · rw [vz, Nat.cast_sub (by omega), vv]; push_cast; rw [ZMod.natCast_self]; ring
    · unfold sub
      rw [if_pos ((compare_lt hx hy).2 hc), h2 h]
      split <;> rfl
  · refine ⟨fun _ => ?_, fun h => absurd h hc⟩
    obtain ⟨z, ez, wz, vz⟩ := (Vuint.sub_spec hx hy).1 (by omega)
    refine ⟨z, ?_, wz, by omega, ?_⟩
    · unfold sub
      rw [if_neg (by rw [compare_lt hx hy]; exact hc), ez]; rfl
    · rw [vz, Nat.cast_sub (by omega)]

theorem neg_spec {M : List ℕ} {s : Mem} {out x : ℕ} (hM : WF M) (hx : WF (s x)) (lx : val (s x) < val M) :
    ∃ z, neg M s out x = .ok (Function.update s out z) ∧ WF z ∧ val z < val M ∧ (val z : ZMod (val M)) = -val (s x) := by
  unfold neg
  by_cases h0 : val (s x) = 0
  · rw [if_pos ((isZero_iff hx).2 h0)]
    exact ⟨s x, rfl, hx, lx, by rw [h0]; simp⟩
  · rw [if_neg (by rw [isZero_iff hx]; exact h0)]
    obtain ⟨z, ez, wz, vz⟩ := (Vuint.sub_spec hM hx).1 (by omega)
    refine ⟨z, by rw [ez]; rfl, wz, by omega, ?_⟩
    rw [vz, Nat.cast_sub (by omega), ZMod.natCast_self]; ring

theorem mul_spec {M : List ℕ} {s : Mem} {out x y : ℕ} (hM : WF M) (h0 : val M ≠ 0) (h8 : val M < B64 ^ 8) (hx : WF (s x))
    (hy : WF (s y)) :
    ((s x).length + (s y).length ≤ 9 → ∃ z, mul M s out x y = .ok (Function.update s out z) ∧ WF z ∧
      val z < val M ∧ (val z : ZMod (val M)) = val (s x) * val (s y)) ∧
    (9 < (s x).length + (s y).length → mul M s out x y = .exit) := by
  obtain ⟨h1, h2⟩ := Vuint.mul_spec hx hy
  refine ⟨fun h => ?_, fun h => by unfold mul; rw [h2 h]; rfl⟩
  obtain ⟨v, e, wv, vv⟩ := h1 h
  obtain ⟨z, ez, wz, vz⟩ := (modulo_spec hM wv).1 h0 (.inl h8)
  refine ⟨z, ?_, wz, by rw [vz]; exact Nat.mod_lt _ (Nat.pos_of_ne_zero h0), ?_⟩
  · unfold mul
    rw [e, Res.bind_ok]
    dsimp only
    rw [Function.update_self, ez, Res.bind_ok, Function.update_idem]; rfl
  · rw [vz, ZMod.natCast_mod, vv]; push_cast; rfl

/-! ### the value forms -/

variable {M : List ℕ}

theorem length_le4 {x : List ℕ} (hx : WF x) (h : val x < B64 ^ 4) : x.length ≤ 4 := by
  by_contra hc
  have h1 := hx.val_ge (by omega)
  have : B64 ^ 4 ≤ B64 ^ (x.length - 1) := Nat.pow_le_pow_right B64_pos (by omega)
  omega

theorem times_spec (hM : WF M) (h0 : val M ≠ 0) (h4 : val M ≤ B64 ^ 4) {x y : List ℕ} (hx : WF x) (hy : WF y)
    (lx : val x < val M) (ly : val y < val M) : ∃ z, times M x y = .ok z ∧ WF z ∧ val z < val M ∧
      (val z : ZMod (val M)) = val x * val y := by
  have l1 := length_le4 hx (lt_of_lt_of_le lx h4)
  have l2 := length_le4 hy (lt_of_lt_of_le ly h4)
  have h8 : B64 ^ 4 < B64 ^ 8 := by decide +kernel
  obtain ⟨z, e, r⟩ := (mul_spec (s := fun i => if i = 0 then Vuint.ofUnit 0 else if i = 1 then x else y) (out := 0) (x := 1) (y := 2)
    hM h0 (by omega) hx hy).1 (by simp; omega)
  refine ⟨z, ?_, r⟩
  unfold times
  rw [e, Res.bind_ok, Function.update_self]; rfl

theorem subAssign_spec (hM : WF M) (h4 : val M ≤ B64 ^ 4) {x y : List ℕ} (hx : WF x) (hy : WF y)
    (lx : val x < val M) (ly : val y < val M) : ∃ z, subAssign M x y = .ok z ∧ WF z ∧ val z < val M ∧
      (val z : ZMod (val M)) = val x - val y := by
  have h9 : B64 ^ 4 + B64 ^ 4 < B64 ^ 9 := by decide +kernel
  obtain ⟨z, e, r⟩ := (sub_spec (s := fun i => if i = 0 then x else y) (out := 0) (x := 0) (y := 1) hM hx hy lx ly).1
    (.inr (by simp; omega))
  refine ⟨z, ?_, r⟩
  unfold subAssign
  rw [e, Res.bind_ok, Function.update_self]; rfl

theorem minus_spec (hM : WF M) {x : List ℕ} (hx : WF x) (lx : val x < val M) : ∃ z, minus M x = .ok z ∧ WF z ∧ val z < val M ∧
      (val z : ZMod (val M)) = -val x := by
  obtain ⟨z, e, r⟩ := neg_spec (s := fun i => if i = 0 then Vuint.ofUnit 0 else x) (out := 0) (x := 1) hM hx lx
  refine ⟨z, ?_, r⟩
  unfold minus
  rw [e, Res.bind_ok, Function.update_self]; rfl

theorem divStep_spec {q r x y : List ℕ} (hx : WF x) (hy : WF y) (h0 : val y ≠ 0) (h : val y < B64 ^ 8) :
    ∃ q' r', divStep q r x y = .ok (q', r') ∧ WF q' ∧ WF r' ∧ val q' = val x / val y ∧ val r' = val x % val y := by
  obtain ⟨q', r', e, w⟩ := (div_spec hx hy).2.1 h0 (.inl h)
  exact ⟨q', r', by unfold divStep; rw [e]; rfl, w⟩

/-! ### the inverse -/

theorem cast_div (m a b q : ℕ) (h : q = a / b) : (a : ZMod m) = q * b + (a % b : ℕ) := by
  subst h
  have := Nat.div_add_mod a b
  calc (a : ZMod m) = ((b * (a / b) + a % b : ℕ) : ZMod m) := by rw [this]
    _ = _ := by push_cast; ring

theorem invLoop_spec (hM : WF M) (h0 : val M ≠ 0) (h4 : val M ≤ B64 ^ 4) (X : ZMod (val M)) :
    ∀ (n : ℕ) (a b q s t : List ℕ), WF a → WF b → WF s → WF t → val a < val M → val b < val M → val s < val M →
      val t < val M → val t ≠ 0 → Nat.Coprime (val s) (val t) → val t < n →
      (val a : ZMod (val M)) * X = val s → (val b : ZMod (val M)) * X = val t →
      ∃ z, invLoop M n a b q s t = .ok z ∧ WF z ∧ val z < val M ∧ (val z : ZMod (val M)) * X = 1 := by
  intro n
  induction n with
  | zero => intro a b q s t _ _ _ _ _ _ _ _ _ _ h; omega
  | succ n ih =>
    intro a b q s t wa wb ws wt la lb ls lt t0 cp hn ea eb
    have h8 : B64 ^ 4 < B64 ^ 8 := by decide +kernel
    unfold invLoop
    obtain ⟨q1, s1, e1, wq1, ws1, vq1, vs1⟩ := divStep_spec (q := q) (r := s) ws wt t0 (by omega)
    rw [e1, Res.bind_ok]
    dsimp only
    by_cases hz : val s1 = 0
    · rw [if_pos ((isZero_iff ws1).2 hz)]
      refine ⟨b, rfl, wb, lb, ?_⟩
      have hd : val t ∣ val s := Nat.dvd_of_mod_eq_zero (by omega)
      have : val t = 1 := by rw [← Nat.gcd_eq_right hd]; exact cp
      rw [eb, this, Nat.cast_one]
    · rw [if_neg (by rw [isZero_iff ws1]; exact hz)]
      have lq1 : val q1 < val M := by rw [vq1]; exact lt_of_le_of_lt (Nat.div_le_self _ _) ls
      obtain ⟨bq, e2, wbq, lbq, vbq⟩ := times_spec hM h0 h4 wb wq1 lb lq1
      obtain ⟨a1, e3, wa1, la1, va1⟩ := subAssign_spec hM h4 wa wbq la lbq
      rw [e2, Res.bind_ok, e3, Res.bind_ok]
      have hs1 : val s1 < val t := by rw [vs1]; exact Nat.mod_lt _ (Nat.pos_of_ne_zero t0)
      have cp1 : Nat.Coprime (val s1) (val t) := by
        rw [vs1]; unfold Nat.Coprime; rw [← Nat.gcd_rec, Nat.gcd_comm]; exact cp
      have ea1 : (val a1 : ZMod (val M)) * X = val s1 := by
        have := cast_div (val M) (val s) (val t) (val q1) vq1
        rw [← vs1] at this
        rw [va1, vbq]
        linear_combination ea - (val q1 : ZMod (val M)) * eb + this
      obtain ⟨q2, t1, e4, wq2, wt1, vq2, vt1⟩ := divStep_spec (q := q1) (r := t) wt ws1 hz (by omega)
      rw [e4, Res.bind_ok]
      dsimp only
      by_cases hz' : val t1 = 0
      · rw [if_pos ((isZero_iff wt1).2 hz')]
        refine ⟨a1, rfl, wa1, la1, ?_⟩
        have hd : val s1 ∣ val t := Nat.dvd_of_mod_eq_zero (by omega)
        have : val s1 = 1 := by rw [← Nat.gcd_eq_left hd]; exact cp1
        rw [ea1, this, Nat.cast_one]
      · rw [if_neg (by rw [isZero_iff wt1]; exact hz')]
        have lq2 : val q2 < val M := by rw [vq2]; exact lt_of_le_of_lt (Nat.div_le_self _ _) lt
        obtain ⟨aq, e5, waq, laq, vaq⟩ := times_spec hM h0 h4 wa1 wq2 la1 lq2
        obtain ⟨b1, e6, wb1, lb1, vb1⟩ := subAssign_spec hM h4 wb waq lb laq
        rw [e5, Res.bind_ok, e6, Res.bind_ok]
        have ht1 : val t1 < val s1 := by rw [vt1]; exact Nat.mod_lt _ (Nat.pos_of_ne_zero hz)
        refine ih a1 b1 q2 s1 t1 wa1 wb1 ws1 wt1 la1 lb1 (by omega) (by omega) hz' ?_ (by omega) ea1 ?_
        · rw [vt1]; unfold Nat.Coprime; rw [Nat.gcd_comm, ← Nat.gcd_rec]; exact cp1
        · have := cast_div (val M) (val t) (val s1) (val q2) vq2
          rw [← vt1] at this
          rw [vb1, vaq]
          linear_combination eb - (val q2 : ZMod (val M)) * ea1 + this

theorem inv_spec (hM : WF M) (h1 : 1 < val M) (h4 : val M ≤ B64 ^ 4) {x : List ℕ} (hx : WF x) (lx : val x < val M)
    (hc : Nat.Coprime (val x) (val M)) :
    ∃ z, inv M x = .ok z ∧ WF z ∧ val z < val M ∧ (val z : ZMod (val M)) * val x = 1 := by
  have w1 : WF (ofUnit 1) := wf_ofUnit (by norm_num)
  have h8 : B64 ^ 4 < B64 ^ 8 := by decide +kernel
  have x0 : val x ≠ 0 := fun h => by rw [h, Nat.coprime_zero_left] at hc; omega
  unfold inv
  dsimp only
  by_cases hx1 : val x = 1
  · rw [if_pos ((compare_eq w1 hx).2 (by rw [val_ofUnit, hx1]))]
    exact ⟨_, rfl, w1, by rw [val_ofUnit]; exact h1, by rw [val_ofUnit, hx1]; simp⟩
  · rw [if_neg (by rw [compare_eq w1 hx, val_ofUnit]; omega)]
    obtain ⟨q, t, e1, wq, wt, vq, vt⟩ := divStep_spec (q := ofUnit 0) (r := ofUnit 0) hM hx x0 (by omega)
    rw [e1, Res.bind_ok]
    dsimp only
    have lq : val q < val M := by rw [vq]; exact Nat.div_lt_self (by omega) (by omega)
    obtain ⟨b, e2, wb, lb, vb⟩ := minus_spec hM wq lq
    rw [e2, Res.bind_ok]
    have ht : val t < val x := by rw [vt]; exact Nat.mod_lt _ (Nat.pos_of_ne_zero x0)
    refine invLoop_spec hM (by omega) h4 (val x : ZMod (val M)) _ _ _ _ _ _ w1 wb hx wt (by rw [val_ofUnit]; exact h1) lb lx
      (by omega) ?_ ?_ (by omega) (by rw [val_ofUnit]; simp) ?_
    · intro h
      have : val x ∣ val M := Nat.dvd_of_mod_eq_zero (by omega)
      have : val x = 1 := by rw [← Nat.gcd_eq_left this]; exact hc
      exact hx1 this
    · rw [vt]; unfold Nat.Coprime; rw [Nat.gcd_comm, ← Nat.gcd_rec]; exact hc
    · have := cast_div (val M) (val M) (val x) (val q) vq
      rw [← vt, ZMod.natCast_self] at this
      rw [vb]
      linear_combination this

theorem inv_zero {x : List ℕ} (hx : WF x) (h0 : val x = 0) : ∃ z, inv M x = .ok z ∧ WF z ∧ val z = 0 := by
  have w1 : WF (ofUnit 1) := wf_ofUnit (by norm_num)
  have w0 : WF (ofUnit 0) := wf_ofUnit (by norm_num)
  unfold inv
  dsimp only
  rw [if_neg (by rw [compare_eq w1 hx, val_ofUnit]; omega)]
  have e : ∀ a, Vuint.div a x = .ok none := fun a => by
    have hl : x.length = 1 := by
      by_contra hc
      have := hx.val_ge hc
      have := Nat.pow_pos (n := x.length - 1) B64_pos
      omega
    obtain ⟨w, rfl⟩ := List.length_eq_one_iff.1 hl
    have : w = 0 := by simpa using h0
    subst this
    rfl
  have em : minus M (ofUnit 0) = .ok (ofUnit 0) := rfl
  have e1 : divStep (ofUnit 0) (ofUnit 0) M x = .ok (ofUnit 0, ofUnit 0) := by unfold divStep; rw [e]; rfl
  have e2 : divStep (ofUnit 0) x x (ofUnit 0) = .ok (ofUnit 0, x) := by
    unfold divStep; rw [(div_spec hx w0).1 (val_ofUnit 0)]; rfl
  rw [e1, Res.bind_ok]
  dsimp only
  rw [em, Res.bind_ok]
  unfold invLoop
  rw [e2, Res.bind_ok]
  dsimp only
  rw [if_pos ((isZero_iff hx).2 h0)]
  exact ⟨_, rfl, w0, val_ofUnit 0⟩

end Zm
end Verif
