import Verif.Util.Naf
import Verif.Pairing.Model
import Mathlib.Data.Nat.Size

/-! Bit length and bits of a `Vuint` (C11), digit strings for the Miller loop (C51). -/

namespace Verif

open Naf

/-! ### C11 -/

theorem size_eq {n : ℕ} (h : n ≠ 0) : Nat.size n = Nat.log2 n + 1 := by
  apply le_antisymm
  · rw [Nat.size_le]; exact Nat.lt_log2_self
  · rw [Nat.succ_le_iff, Nat.lt_size]; exact Nat.log2_self_le h

theorem roundsUp_size {t : ℕ} (h : t ≠ 0) : RoundsUp t ↔ (2 ^ 53 ≤ t ∧ 2 ^ t.size ≤ t + 2 ^ (t.size - 54)) := by
  rw [size_eq h]; exact Iff.rfl

theorem top_ne {x : List ℕ} (h : WF x) (h0 : val x ≠ 0) : x.getD (x.length - 1) 0 ≠ 0 := by
  have ht := h.top_ne h0
  have := h.pos
  rw [List.getLast?_eq_getElem?] at ht
  rw [List.getD_eq_getElem?_getD]
  rw [List.getElem?_eq_getElem (by omega)] at ht ⊢
  simpa using ht

/-- C11: `bitLen` is the number of significant bits, one more when the top word t lies within half a unit in the last
place below a power of two, that is 2^size(t) - t ≤ 2^(size(t)-54) with t ≥ 2^53. -/
theorem C11_bitLen {x : List ℕ} (hx : WF x) (h0 : val x ≠ 0) (t : ℕ) (ht : x.getLast? = some t) :
    Vuint.bitLen x = (val x).size + if 2 ^ 53 ≤ t ∧ 2 ^ t.size ≤ t + 2 ^ (t.size - 54) then 1 else 0 := by
  have e : x.getD (x.length - 1) 0 = t := by
    rw [List.getLast?_eq_getElem?] at ht
    rw [List.getD_eq_getElem?_getD, ht]; rfl
  have hne := top_ne hx h0
  rw [e] at hne
  rw [bitLen_spec hx h0, size_eq h0, e, if_congr (roundsUp_size hne) rfl rfl]

example : WF [5, 2 ^ 40] ∧ val [5, 2 ^ 40] ≠ 0 ∧ Vuint.bitLen [5, 2 ^ 40] = 105 := by decide +kernel

theorem C11_bitLen_zero : Vuint.bitLen [0] = 0 := by decide

/-- below 2^53 in the top word the result is exact -/
theorem C11_bitLen_exact {x : List ℕ} (hx : WF x) (t : ℕ) (ht : x.getLast? = some t) (hlt : t < 2 ^ 53) :
    Vuint.bitLen x = (val x).size := by
  by_cases h0 : val x = 0
  · rw [h0, Nat.size_zero]
    unfold Vuint.bitLen
    rw [(isZero_iff hx).2 h0]; rfl
  · rw [C11_bitLen hx h0 t ht, if_neg (fun h => absurd h.1 (Nat.not_le.2 hlt))]; rfl

example : WF [2 ^ 64 - 1, 2 ^ 53 - 1] ∧ ([2 ^ 64 - 1, 2 ^ 53 - 1] : List ℕ).getLast? = some (2 ^ 53 - 1) ∧
    Vuint.bitLen [2 ^ 64 - 1, 2 ^ 53 - 1] = 117 := by decide +kernel

/-- C11 is not true of the code: `bitLen` of the 54-bit number 2^54-1 is 55. -/
theorem C11_bitLen_wrong : ∃ x, WF x ∧ val x ≠ 0 ∧ Vuint.bitLen x ≠ (val x).size :=
  ⟨[2 ^ 54 - 1], by decide, by decide, by decide +kernel⟩

/-- a bit below the stored words is the binary digit -/
theorem C11_testBit {x : List ℕ} (hx : WF x) (i : ℕ) (hi : i < 64 * x.length) :
    Vuint.testBit x i = .ok ((val x).testBit i) := by
  unfold Vuint.testBit
  dsimp only
  rw [if_pos (by omega), mask_testBit, val_testBit hx.words hi]

example : WF [0, 5] ∧ 66 < 64 * ([0, 5] : List ℕ).length ∧ Vuint.testBit [0, 5] 66 = .ok true ∧
    Vuint.testBit [0, 5] 65 = .ok false := by decide +kernel

/-- above the stored words there is no answer: an indeterminate word is read, or the process is left -/
theorem C11_testBit_outside (x : List ℕ) (i : ℕ) (hi : 64 * x.length ≤ i) :
    Vuint.testBit x i = if i < 640 then .ub else .exit := by
  unfold Vuint.testBit cap
  dsimp only
  rw [if_neg (by omega)]
  split_ifs <;> first | rfl | omega

example : Vuint.testBit [3] 64 = .ub ∧ Vuint.testBit [3] 640 = .exit := by decide

/-! ### C51 -/

theorem bitLen_le {x : List ℕ} (hx : WF x) (h0 : val x ≠ 0) (t : ℕ) (ht : x.getLast? = some t)
    (hlt : t < 2 ^ 64 - 2 ^ 10) : Vuint.bitLen x ≤ 64 * x.length ∧ (val x).size ≤ Vuint.bitLen x := by
  have e : x.getD (x.length - 1) 0 = t := by
    rw [List.getLast?_eq_getElem?] at ht
    rw [List.getD_eq_getElem?_getD, ht]; rfl
  have hne := top_ne hx h0
  rw [e] at hne
  rw [size_eq h0, bitLen_spec hx h0, e, log2_val hx.words (List.length_pos_iff.1 hx.pos) (hx.top_ne h0), e]
  have hpos := hx.pos
  have hl : Nat.log2 t < 64 := (Nat.log2_lt hne).2 (by omega)
  refine ⟨?_, by omega⟩
  split_ifs with h
  · rcases Nat.lt_or_ge (Nat.log2 t) 63 with h' | h'
    · omega
    · exfalso
      have : Nat.log2 t = 63 := by omega
      unfold RoundsUp at h
      rw [this] at h
      omega
  · omega

/-- C51: the binary digits, most significant first, whenever the top word is below 2^64-2^10. -/
theorem C51_binary {x : List ℕ} (hx : WF x) (h0 : val x ≠ 0) (t : ℕ) (ht : x.getLast? = some t)
    (hlt : t < 2 ^ 64 - 2 ^ 10) :
    ∃ v, toBinary x = .ok v ∧ value v = val x ∧ (∀ d ∈ v, d = 0 ∨ d = 1) ∧ v.length = Vuint.bitLen x := by
  obtain ⟨h1, h2⟩ := bitLen_le hx h0 t ht hlt
  unfold toBinary
  dsimp only
  have hz : val x / 2 ^ Vuint.bitLen x = 0 := by
    apply Nat.div_eq_of_lt
    exact lt_of_lt_of_le (Nat.lt_size_self (val x)) (Nat.pow_le_pow_right (by norm_num) h2)
  obtain ⟨w, e1, e2, e3, e4⟩ := binLoop_spec hx.words h1 (Vuint.bitLen x) [] (by simp) (by simp [hz]) (by simp)
  refine ⟨w, e1, ?_, e3, e2⟩
  rw [e4, hz]; simp

example : toBinary [13] = .ok [1, 1, 0, 1] ∧ toBinary [1, 1] = .ok (1 :: List.replicate 63 0 ++ [1]) := by decide +kernel

/-- for the remaining top words the first digit is read behind the stored words -/
theorem C51_binary_ub {x : List ℕ} (hx : WF x) (t : ℕ) (ht : x.getLast? = some t) (hge : 2 ^ 64 - 2 ^ 10 ≤ t) :
    toBinary x = .ub := by
  have e : x.getD (x.length - 1) 0 = t := by
    rw [List.getLast?_eq_getElem?] at ht
    rw [List.getD_eq_getElem?_getD, ht]; rfl
  have ht64 : t < 2 ^ 64 := hx.words t (List.mem_of_getLast? ht)
  have hpos := hx.pos
  have hlen := hx.len
  have h0 : val x ≠ 0 := by
    intro h
    rw [← isZero_iff hx] at h
    unfold Vuint.isZero at h
    rw [Bool.and_eq_true, beq_iff_eq, beq_iff_eq] at h
    obtain ⟨w, rfl⟩ := List.length_eq_one_iff.1 h.1
    simp at h ht
    omega
  have hlog : Nat.log2 t = 63 := (Nat.log2_eq_iff (by omega)).2 ⟨by omega, by omega⟩
  have hbl : Vuint.bitLen x = 64 * x.length + 1 := by
    rw [bitLen_spec hx h0, e, log2_val hx.words (List.length_pos_iff.1 hx.pos) (hx.top_ne h0), e, hlog, if_pos]
    · omega
    · unfold RoundsUp
      rw [hlog]
      omega
  unfold toBinary
  dsimp only
  rw [hbl]
  unfold binLoop
  rw [C11_testBit_outside x _ (by simp), if_pos (by simp; omega)]
  rfl

example : WF [7, 2 ^ 64 - 1] ∧ toBinary [7, 2 ^ 64 - 1] = .ub := by decide +kernel

/-- C51: the signed recoding has the value, the length and at most the weight of the binary string, digits -1, 0, 1;
from some index k ≥ 2 on no two adjacent digits are non-zero, and the digits 2, ..., k-1 are an unchanged run of ones,
followed by a zero. -/
theorem C51_naf {v : List ℤ} (h2 : 2 ≤ v.length) (hb : ∀ d ∈ v, d = 0 ∨ d = 1) :
    ∃ w, toNaf v = .ok w ∧ value w = value v ∧ w.length = v.length ∧ (∀ d ∈ w, d = 0 ∨ d = 1 ∨ d = -1) ∧
      (w.filter (· ≠ 0)).length ≤ (v.filter (· ≠ 0)).length ∧
      ∃ k ≥ 2, (∀ i ≥ k, i + 1 < w.length → w[i]? = some 0 ∨ w[i + 1]? = some 0) ∧
        (∀ i, 2 ≤ i → i < k → w[i]? = some 1) ∧ (∀ i < 2, w[i]? = some 0 ∨ w[i]? = some 1) ∧
        (2 < k → k < w.length → w[k]? = some 0) := by
  obtain ⟨w, k, e1, e2, e3, e4, e5, hk, s1, s2, s3, s4⟩ := toNaf_spec h2 hb
  rw [weight_filter, weight_filter] at e4
  exact ⟨w, e1, e3, e2, e5, e4, k, hk, s1, s2, s3, s4⟩

example : toNaf [1, 0, 0, 1, 1, 1, 0, 1, 1] = .ok [1, 0, 1, 0, 0, 0, -1, 0, -1] := by decide +kernel

/-- C51 is not true of the code: the recoding of 3 has two adjacent non-zero digits, and so has that of 23 although
its first digits are 1, 0. -/
theorem C51_adjacent :
    toNaf [1, 1] = .ok [1, 1] ∧ toNaf [1, 0, 1, 1, 1] = .ok [1, 0, 1, 1, 1] ∧ toNaf [1, 1, 1, 1] = .ok [1, 1, 1, 1] := by
  decide +kernel

/-- and on the numbers 0 and 1 the index leaves the vector -/
theorem C51_small : goodRepl [0] = .ub ∧ goodRepl [1] = .ub := by decide +kernel

/-- C51: `getGoodRepl` returns a digit string of the number, the signed one exactly when it has fewer non-zero
digits than the binary one, which it then replaces. -/
theorem C51_goodRepl {x : List ℕ} (hx : WF x) (h0 : 2 ≤ val x) (t : ℕ) (ht : x.getLast? = some t)
    (hlt : t < 2 ^ 64 - 2 ^ 10) :
    ∃ f v b n, goodRepl x = .ok (f, v) ∧ toBinary x = .ok b ∧ toNaf b = .ok n ∧ value v = val x ∧
      (∀ d ∈ v, d = 0 ∨ d = 1 ∨ d = -1) ∧ v = (if f then n else b) ∧
      (f = true ↔ (n.filter (· ≠ 0)).length < (b.filter (· ≠ 0)).length) ∧
      (v.filter (· ≠ 0)).length = min (n.filter (· ≠ 0)).length (b.filter (· ≠ 0)).length := by
  obtain ⟨b, b1, b2, b3, b4⟩ := C51_binary hx (by omega) t ht hlt
  have hsz := (bitLen_le hx (by omega) t ht hlt).2
  have h2 : 2 ≤ (val x).size := by
    have : 1 < (val x).size := by rw [Nat.lt_size]; omega
    omega
  obtain ⟨n, n1, n2, n3, n4, n5, -⟩ := C51_naf (v := b) (by omega) b3
  unfold goodRepl
  rw [b1, Res.bind_ok, n1, Res.bind_ok, weight_filter, weight_filter]
  by_cases h : (n.filter (· ≠ 0)).length < (b.filter (· ≠ 0)).length
  · rw [if_pos h]
    exact ⟨true, n, b, n, rfl, rfl, n1, by rw [n2, b2], n4, rfl, by simpa using h, by rw [Nat.min_eq_left h.le]⟩
  · rw [if_neg h]
    exact ⟨false, b, b, n, rfl, rfl, n1, b2, fun d hd => by rcases b3 d hd with h | h <;> simp [h], rfl, by simpa using h,
      by rw [Nat.min_eq_right (Nat.not_lt.1 h)]⟩

example : goodRepl [0b1001110111] = .ok (true, [1, 0, 1, 0, 0, 0, -1, 0, 0, -1]) := by decide +kernel

/-- C51: for the words of |6z+2| the result is the table `siTbl` of 65 binary digits, `useNAF` is false. -/
theorem C51_siTbl : goodRepl [27886288892678111236 % 2 ^ 64, 27886288892678111236 / 2 ^ 64] = .ok (false, Param.siTbl) := by
  decide +kernel

example : ((27886288892678111236 : ℕ) : ℤ) = |6 * (-(2 ^ 62 + 2 ^ 55 + 1)) + 2| := by decide +kernel

end Verif
