import Verif.Fp.WordMul
import Verif.Fp.Prime
import Mathlib.Algebra.Field.ZMod
import Mathlib.Tactic.LinearCombination

/-! Fast reduction and the almost-inverse loop. -/

namespace Verif.Fp

/-- `fast_modp` is exact below 7 * 2^253 (> 6p). -/
theorem wFastModp_spec {x : W4} (hx : x.Ok) (h : x.val < 7 * 2 ^ 253) :
    (wFastModp x).Ok ∧ (wFastModp x).val = x.val % p := by
  have hp := p_eq
  have hxv : x.val = x.w0 + B64 * (x.w1 + B64 * (x.w2 + B64 * x.w3)) := rfl
  obtain ⟨h0, h1, h2, h3⟩ := hx
  have hx : x.Ok := ⟨h0, h1, h2, h3⟩
  refine ⟨add4_ok _ _ _, ?_⟩
  unfold wFastModp; dsimp only
  rw [add4_val, maskW_val, pTbl1_val]
  norm_num only at h ⊢
  have ht : x.w3 / 2305843009213693952 ≤ 6 := by omega
  have ht2 : x.w3 / 2305843009213693952 = x.val / 2 ^ 253 := by norm_num only; omega
  norm_num only at ht2
  generalize x.w3 / 2305843009213693952 = t at *
  have hc := sub4_cases hx (pTbl_ok t) (c := 0) (by norm_num)
  rw [pTbl_val t ht] at hc
  rcases (show t = 0 ∨ t = 1 ∨ t = 2 ∨ t = 3 ∨ t = 4 ∨ t = 5 ∨ t = 6 by omega) with
    rfl | rfl | rfl | rfl | rfl | rfl | rfl <;>
  · rw [hp] at hc ⊢
    rcases hc with ⟨c0, c1, c2⟩ | ⟨c0, c1, c2⟩ <;> rw [c0, c2]
    · rw [if_neg (by norm_num)]; omega
    · rw [if_pos rfl]; omega

theorem w2zAdd3x_spec {z x : W4} (hz : z.val < p) (hx' : x.val < p) :
    (w2zAdd3x z x).Ok ∧ (w2zAdd3x z x).val = (2 * z.val + 3 * x.val) % p := by
  have hp := p_eq
  unfold w2zAdd3x; dsimp only
  have e : (add4 (add4 (add4 z x 0).1 (add4 z x 0).1 0).1 x 0).1.val = 2 * z.val + 3 * x.val := by
    rw [add4_val, add4_val, add4_val]; omega
  obtain ⟨h1, h2⟩ := wFastModp_spec (x := (add4 (add4 (add4 z x 0).1 (add4 z x 0).1 0).1 x 0).1)
    (add4_ok _ _ _) (by rw [e]; norm_num only; omega)
  exact ⟨h1, by rw [h2, e]⟩

/-- Loop invariant of the almost inverse for input value a. -/
structure AInv (a : ℕ) (st : InvSt) : Prop where
  uok : st.u.Ok
  vok : st.v.Ok
  rok : st.r.Ok
  sok : st.s.Ok
  upos : 0 < st.u.val
  spos : 0 < st.s.val
  sum : st.u.val * st.s.val + st.v.val * st.r.val = p
  rle : st.r.val ≤ 2 * p
  hr : (a : ZMod p) * st.r.val + st.u.val * 2 ^ st.k = 0
  hs : (a : ZMod p) * st.s.val = st.v.val * 2 ^ st.k

theorem invStep_spec {a : ℕ} {st : InvSt} (h : AInv a st) (hv : st.v.val ≠ 0) :
    AInv a (invStep st) ∧ (invStep st).k = st.k + 1 ∧
      2 * ((invStep st).u.val * (invStep st).v.val) ≤ st.u.val * st.v.val := by
  obtain ⟨uok, vok, rok, sok, upos, spos, sum, rle, hr, hs⟩ := h
  have hp := p_eq
  have hsle : st.s.val ≤ p := by
    rw [← sum]
    calc st.s.val = 1 * st.s.val := (Nat.one_mul _).symm
      _ ≤ st.u.val * st.s.val := Nat.mul_le_mul_right _ upos
      _ ≤ _ := Nat.le_add_right _ _
  have hrle : st.r.val ≤ p := by
    rw [← sum]
    calc st.r.val = 1 * st.r.val := (Nat.one_mul _).symm
      _ ≤ st.v.val * st.r.val := Nat.mul_le_mul_right _ (Nat.pos_of_ne_zero hv)
      _ ≤ _ := Nat.le_add_left _ _
  have dbl : ∀ x : W4, x.val ≤ p → (add4 x x 0).1.val = 2 * x.val := by
    intro x hx; rw [add4_val]; omega
  have dr := dbl st.r hrle
  have ds := dbl st.s hsle
  have hrs : (add4 st.s st.r 0).1.val = st.s.val + st.r.val := by rw [add4_val]; omega
  have hsr : (add4 st.r st.s 0).1.val = st.r.val + st.s.val := by rw [add4_val]; omega
  unfold invStep
  dsimp only
  rw [w0_mod2, w0_mod2]
  by_cases hu2 : st.u.val % 2 = 0
  · rw [if_pos hu2]
    obtain ⟨sh1, sh2⟩ := wShr_val uok 1 (by simp)
    rw [pow_one] at sh2
    obtain ⟨m, hm⟩ : ∃ m, st.u.val = 2 * m := ⟨st.u.val / 2, by omega⟩
    have hm' : (wShr 1 st.u).val = m := by omega
    refine ⟨⟨sh1, vok, rok, add4_ok _ _ _, ?_, ?_, ?_, rle, ?_, ?_⟩, rfl, ?_⟩ <;> dsimp only
    · omega
    · omega
    · rw [hm', ds]; rw [hm] at sum; rw [← sum]; ring
    · rw [hm']; rw [hm] at hr; push_cast at hr; rw [pow_succ]; linear_combination hr
    · rw [ds]; push_cast; rw [pow_succ]; linear_combination 2 * hs
    · rw [hm', hm]; exact le_of_eq (by ring)
  rw [if_neg hu2]
  by_cases hv2 : st.v.val % 2 = 0
  · rw [if_pos hv2]
    obtain ⟨sh1, sh2⟩ := wShr_val vok 1 (by simp)
    rw [pow_one] at sh2
    obtain ⟨m, hm⟩ : ∃ m, st.v.val = 2 * m := ⟨st.v.val / 2, by omega⟩
    have hm' : (wShr 1 st.v).val = m := by omega
    refine ⟨⟨uok, sh1, add4_ok _ _ _, sok, upos, spos, ?_, ?_, ?_, ?_⟩, rfl, ?_⟩ <;> dsimp only
    · rw [hm', dr]; rw [hm] at sum; rw [← sum]; ring
    · omega
    · rw [dr]; push_cast; rw [pow_succ]; linear_combination 2 * hr
    · rw [hm']; rw [hm] at hs; push_cast at hs; rw [pow_succ]; linear_combination hs
    · rw [hm', hm]; exact le_of_eq (by ring)
  rw [if_neg hv2]
  rcases sub4_cases vok uok (c := 0) (by norm_num) with ⟨c0, c1, c2⟩ | ⟨c0, c1, c2⟩
  · rw [if_pos c0]
    obtain ⟨sh1, sh2⟩ := wShr_val (sub4_ok st.v st.u 0) 1 (by simp)
    rw [pow_one, c2] at sh2
    obtain ⟨m, hm⟩ : ∃ m, st.v.val = 2 * m + st.u.val := ⟨(st.v.val - st.u.val) / 2, by omega⟩
    have hm' : (wShr 1 (sub4 st.v st.u 0).1).val = m := by omega
    refine ⟨⟨uok, sh1, add4_ok _ _ _, add4_ok _ _ _, upos, ?_, ?_, ?_, ?_, ?_⟩, rfl, ?_⟩ <;>
      dsimp only
    · omega
    · rw [hm', dr, hrs]; rw [hm] at sum; rw [← sum]; ring
    · omega
    · rw [dr]; push_cast; rw [pow_succ]; linear_combination 2 * hr
    · rw [hm', hrs]; rw [hm] at hs; push_cast at hs ⊢; rw [pow_succ]
      linear_combination hs + hr
    · rw [hm', hm]
      calc 2 * (st.u.val * m) = st.u.val * (2 * m) := by ring
        _ ≤ _ := Nat.mul_le_mul_left _ (by omega)
  · rw [if_neg (by omega)]
    have hsub : (sub4 st.u st.v 0).1.val = st.u.val - st.v.val := by
      rcases sub4_cases uok vok (c := 0) (by norm_num) with ⟨_, d1, d2⟩ | ⟨_, d1, d2⟩ <;> omega
    obtain ⟨sh1, sh2⟩ := wShr_val (sub4_ok st.u st.v 0) 1 (by simp)
    rw [pow_one, hsub] at sh2
    obtain ⟨m, hm⟩ : ∃ m, st.u.val = 2 * m + st.v.val := ⟨(st.u.val - st.v.val) / 2, by omega⟩
    have hm' : (wShr 1 (sub4 st.u st.v 0).1).val = m := by omega
    refine ⟨⟨sh1, vok, add4_ok _ _ _, add4_ok _ _ _, ?_, ?_, ?_, ?_, ?_, ?_⟩, rfl, ?_⟩ <;>
      dsimp only
    · omega
    · omega
    · rw [hm', ds, hsr]; rw [hm] at sum; rw [← sum]; ring
    · omega
    · rw [hm', hsr]; rw [hm] at hr; push_cast at hr ⊢; rw [pow_succ]
      linear_combination hr + hs
    · rw [ds]; push_cast; rw [pow_succ]; linear_combination 2 * hs
    · rw [hm', hm]
      calc 2 * (m * st.v.val) = (2 * m) * st.v.val := by ring
        _ ≤ _ := Nat.mul_le_mul_right _ (by omega)

theorem invLoop_spec {a : ℕ} (n : ℕ) : ∀ (m : ℕ) (st : InvSt), AInv a st → n ≤ m →
    st.u.val * st.v.val < 2 ^ n →
    ∃ st', invLoop m st = .ok st' ∧ AInv a st' ∧ st'.v.val = 0 ∧ st'.k ≤ st.k + n := by
  induction n with
  | zero =>
    intro m st h _ hlt
    have hv : st.v.val = 0 := by
      rcases Nat.eq_zero_or_pos st.v.val with h0 | h0
      · exact h0
      · have := Nat.mul_pos h.upos h0; omega
    refine ⟨st, ?_, h, hv, by omega⟩
    cases m <;> unfold invLoop <;> rw [if_pos ((W4.zero_iff _).2 hv)]
  | succ n ih =>
    intro m st h hnm hlt
    by_cases hv : st.v.val = 0
    · refine ⟨st, ?_, h, hv, by omega⟩
      cases m <;> unfold invLoop <;> rw [if_pos ((W4.zero_iff _).2 hv)]
    · obtain ⟨m, rfl⟩ : ∃ m', m = m' + 1 := ⟨m - 1, by omega⟩
      obtain ⟨h1, h2, h3⟩ := invStep_spec h hv
      unfold invLoop
      rw [if_neg (fun h0 => hv ((W4.zero_iff _).1 h0))]
      obtain ⟨st', e, h4, h5, h6⟩ := ih m (invStep st) h1 (by omega) (by rw [pow_succ] at hlt; omega)
      exact ⟨st', e, h4, h5, by omega⟩

/-- The almost inverse of a non-zero canonical x: x * r = 2^k mod p with k ≤ 508. -/
theorem wPreInv_spec {x : W4} (hx : x.Ok) (h0 : x.val ≠ 0) (hlt : x.val < p) :
    ∃ r k, wPreInv x = .ok (r, k) ∧ r.Ok ∧ r.val ≤ 2 * p ∧ k ≤ 508 ∧
      (x.val : ZMod p) * r.val = 2 ^ k := by
  have hp := p_eq
  have h1 : (W4.of 1).val = 1 := by rw [W4.val_of]
  have h00 : (W4.of 0).val = 0 := by rw [W4.val_of]
  have hinit : AInv x.val ⟨pTbl 1, x, W4.of 0, W4.of 1, 0⟩ := by
    refine ⟨pTbl_ok 1, hx, W4.of_ok _, W4.of_ok _, ?_, ?_, ?_, ?_, ?_, ?_⟩ <;> dsimp only
    · rw [pTbl1_val]; omega
    · rw [h1]; omega
    · rw [pTbl1_val, h1, h00]; omega
    · rw [h00]; omega
    · rw [pTbl1_val, h00]; simp
    · rw [h1]; simp
  obtain ⟨st, e, inv, hv, hk⟩ := invLoop_spec 508 511 _ hinit (by norm_num) (by
    dsimp only
    rw [pTbl1_val]
    calc p * x.val ≤ p * p := Nat.mul_le_mul_left _ hlt.le
      _ < 2 ^ 508 := by rw [hp]; decide +kernel)
  unfold wPreInv
  rw [e]
  rw [Res.bind_ok]
  dsimp only at hk
  have hsum := inv.sum
  rw [hv, Nat.zero_mul, Nat.add_zero] at hsum
  have hs := inv.hs
  rw [hv] at hs
  simp only [Nat.cast_zero, zero_mul] at hs
  have hx0 : (x.val : ZMod p) ≠ 0 := by
    rw [Ne, ZMod.natCast_eq_zero_iff]
    intro hd; have := Nat.le_of_dvd (Nat.pos_of_ne_zero h0) hd; omega
  have hs0 : (st.s.val : ZMod p) = 0 := (mul_eq_zero.1 hs).resolve_left hx0
  have hps := Nat.le_of_dvd inv.spos ((ZMod.natCast_eq_zero_iff _ _).1 hs0)
  have hu1 : st.u.val = 1 := by
    have h2 : st.u.val * p ≤ 1 * p := by
      rw [Nat.one_mul]
      calc st.u.val * p ≤ st.u.val * st.s.val := Nat.mul_le_mul_left _ hps
        _ = p := hsum
    have := Nat.le_of_mul_le_mul_right h2 (by omega)
    have := inv.upos
    omega
  have hr := inv.hr
  rw [hu1, Nat.cast_one, one_mul] at hr
  have hrv : (sub4 (pTbl 2) st.r 0).1.val = 2 * p - st.r.val := by
    have hc := sub4_cases (pTbl_ok 2) inv.rok (c := 0) (by norm_num)
    rw [pTbl_val 2 (by norm_num)] at hc
    have := inv.rle
    omega
  refine ⟨_, _, rfl, sub4_ok _ _ _, ?_, by omega, ?_⟩
  · rw [hrv]; omega
  · rw [hrv, Nat.cast_sub inv.rle]
    push_cast
    rw [show (p : ZMod p) = 0 from ZMod.natCast_self p]
    linear_combination -hr

theorem wPreInv_zero : wPreInv (W4.of 0) = .ok (W4.of (2 * p), 0) := by decide +kernel

end Verif.Fp
