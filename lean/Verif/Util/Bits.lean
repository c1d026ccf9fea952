import Verif.Vuint.DivModel
import Verif.Vuint.Spec
import Mathlib.Data.Nat.Bitwise

/-! `VuintT::bitLen` and `VuintT::testBit` (zm.h:526-545). -/

namespace Verif

namespace Vuint

/-- `VuintT::bitLen` (zm.h:526-537): the exponent field of `(double)v` for the top word v; `size_t` arithmetic. -/
def bitLen (x : List ℕ) : ℕ :=
  if isZero x then 0
  else
    let v := x.getD (x.length - 1) 0
    let i := (Dbl.ofNat v).toBits
    (1 + (i / 2 ^ 52 + B64 - 2 ^ 10 + 1) % B64 + (x.length - 1) * 64) % B64

/-- `VuintT::testBit` (zm.h:539-545) with `FixedBuffer::operator[]` (zm.h:308): the index is only checked against the
capacity, and `verify` accepts the index 9 of the array of 9 words.  A word at or above `size()` is indeterminate. -/
def testBit (x : List ℕ) (i : ℕ) : Res Bool :=
  let unitPos := i / 64
  let bitPos := i % 64
  if unitPos < x.length then .ok ((x.getD unitPos 0 &&& 2 ^ bitPos) != 0)
  else if unitPos > cap then .exit
  else .ub

end Vuint

/-! ### Lemmas -/

/-- the conversion to double rounds v up to the next power of two -/
def RoundsUp (v : ℕ) : Prop := 2 ^ 53 ≤ v ∧ 2 ^ (Nat.log2 v + 1) ≤ v + 2 ^ (Nat.log2 v - 53)

instance (v : ℕ) : Decidable (RoundsUp v) := by unfold RoundsUp; infer_instance

theorem dbl_key (q : ℕ) (h1 : 2 ^ 52 ≤ q) (h2 : q < 2 ^ 53) (b : Prop) [Decidable b] (e : ℤ) (he : 0 ≤ e + 1075) :
    (if (if b then q + 1 else q) = 2 ^ 53 then (⟨2 ^ 52, e + 1⟩ : Dbl) else ⟨(if b then q + 1 else q), e⟩).toBits / 2 ^ 52 =
    (e + 1075).toNat + if q = 2 ^ 53 - 1 ∧ b then 1 else 0 := by
  by_cases hb : b
  · rw [if_pos hb]
    by_cases hq : q = 2 ^ 53 - 1
    · rw [if_pos (by omega), if_pos ⟨hq, hb⟩]
      unfold Dbl.toBits
      dsimp only
      omega
    · rw [if_neg (by omega), if_neg (fun h => hq h.1)]
      unfold Dbl.toBits
      dsimp only
      omega
  · rw [if_neg hb, if_neg (by omega), if_neg (fun h => hb h.2)]
    unfold Dbl.toBits
    dsimp only
    omega

theorem round_iff {v j q s : ℕ} (hv : 2 ^ j * q + s = v) (hs : s < 2 ^ j) (hq2 : q < 2 ^ 53) :
    (q = 2 ^ 53 - 1 ∧ (2 * s > 2 ^ j ∨ 2 * s = 2 ^ j ∧ q % 2 = 1)) ↔
    (2 ^ 53 ≤ v ∧ 2 ^ (j + 53) ≤ v + 2 ^ (j - 1)) := by
  cases j with
  | zero =>
    norm_num at hs hv hq2 ⊢
    subst hs
    constructor
    · rintro ⟨h1, h2⟩; omega
    · rintro ⟨h1, h2⟩; omega
  | succ j =>
    have e1 : j + 1 - 1 = j := by omega
    have e2 : (2 : ℕ) ^ (j + 1 + 53) = 2 ^ j * 18014398509481984 := by
      rw [show (18014398509481984 : ℕ) = 2 ^ 54 from by norm_num, ← pow_add]
    have e3 : (2 : ℕ) ^ (j + 1) = 2 ^ j * 2 := pow_succ 2 j
    rw [e1, e2, e3]
    rw [e3] at hs hv
    have hj : 0 < 2 ^ j := by positivity
    generalize 2 ^ j = t at *
    norm_num at hq2 ⊢
    constructor
    · rintro ⟨h1, h2⟩
      subst h1
      refine ⟨by omega, ?_⟩
      rcases h2 with h2 | h2 <;> omega
    · rintro ⟨h1, h2⟩
      have hq : q = 9007199254740991 := by
        by_contra hne
        have h3 : q ≤ 9007199254740990 := by omega
        have := Nat.mul_le_mul_left (t * 2) h3
        omega
      subst hq
      refine ⟨rfl, ?_⟩
      rcases Nat.lt_or_ge t s with h | h
      · left; omega
      · right; exact ⟨by omega, by norm_num⟩

theorem scale_hi (v j : ℕ) : Dbl.scale v 1 (j : ℤ) = (v, 2 ^ j) := by
  unfold Dbl.scale
  rw [if_pos (by omega)]; simp

theorem scale_lo (v j : ℕ) (h : 0 < j) : Dbl.scale v 1 (-(j : ℤ)) = (v * 2 ^ j, 1) := by
  unfold Dbl.scale
  rw [if_neg (by omega)]; simp

theorem dbl_exp {v : ℕ} (h0 : 0 < v) :
    (Dbl.ofNat v).toBits / 2 ^ 52 = 1023 + Nat.log2 v + (if RoundsUp v then 1 else 0) := by
  have hl : 2 ^ Nat.log2 v ≤ v := Nat.log2_self_le (by omega)
  have hu : v < 2 ^ (Nat.log2 v + 1) := Nat.lt_log2_self
  obtain ⟨k, hk⟩ : ∃ k, Nat.log2 v = k := ⟨_, rfl⟩
  have hR : RoundsUp v ↔ (2 ^ 53 ≤ v ∧ 2 ^ (k + 1) ≤ v + 2 ^ (k - 53)) := by rw [← hk]; exact Iff.rfl
  rw [if_congr hR rfl rfl]
  unfold Dbl.ofNat Dbl.rn
  rw [hk] at hl hu ⊢
  clear hR hk
  have hl1 : Nat.log2 1 = 0 := by decide
  rw [hl1]
  dsimp only
  rcases Nat.lt_or_ge k 52 with hk52 | hk52
  · -- below 2^52: exact
    obtain ⟨j, hj, hj0⟩ : ∃ j, k + j = 52 ∧ 0 < j := ⟨52 - k, by omega, by omega⟩
    have he : (k : ℤ) - ((0 : ℕ) : ℤ) - 52 = -(j : ℤ) := by push_cast; omega
    have q1 : 2 ^ 52 ≤ v * 2 ^ j := by
      calc 2 ^ 52 = 2 ^ k * 2 ^ j := by rw [← pow_add, hj]
        _ ≤ _ := Nat.mul_le_mul_right _ hl
    have q2 : v * 2 ^ j < 2 ^ 53 := by
      calc v * 2 ^ j < 2 ^ (k + 1) * 2 ^ j := Nat.mul_lt_mul_of_pos_right hu (by positivity)
        _ = 2 ^ 53 := by rw [← pow_add]; congr 1; omega
    rw [he, scale_lo v j hj0]
    dsimp only
    rw [Nat.div_one, if_neg (Nat.not_lt.2 q1), scale_lo v j hj0]
    dsimp only
    rw [Nat.div_one, Nat.mod_one, dbl_key _ q1 q2 _ _ (by omega)]
    have e1 : (-(j : ℤ) + 1075).toNat = 1023 + k := by omega
    rw [e1, if_neg (by rintro ⟨-, h | h⟩ <;> omega), if_neg]
    rintro ⟨h, -⟩
    have : 2 ^ (k + 1) ≤ 2 ^ 53 := Nat.pow_le_pow_right (by norm_num) (by omega)
    exact absurd (lt_of_lt_of_le hu this) (Nat.not_lt.2 h)
  · -- the word is at least 2^52
    obtain ⟨j, rfl⟩ : ∃ j, k = j + 52 := ⟨k - 52, by omega⟩
    have he : ((j + 52 : ℕ) : ℤ) - ((0 : ℕ) : ℤ) - 52 = (j : ℤ) := by push_cast; ring
    have hp : 0 < 2 ^ j := by positivity
    have q1 : 2 ^ 52 ≤ v / 2 ^ j := by
      rw [Nat.le_div_iff_mul_le hp, ← pow_add, add_comm]; exact hl
    have q2 : v / 2 ^ j < 2 ^ 53 := by
      rw [Nat.div_lt_iff_lt_mul hp, ← pow_add, show 53 + j = j + 52 + 1 from by omega]
      exact hu
    rw [he, scale_hi v j]
    dsimp only
    rw [if_neg (Nat.not_lt.2 q1), scale_hi v j]
    dsimp only
    rw [dbl_key _ q1 q2 _ _ (by omega),
      if_congr (round_iff (Nat.div_add_mod v (2 ^ j)) (Nat.mod_lt _ hp) q2) rfl rfl]
    have e1 : ((j : ℤ) + 1075).toNat = 1023 + (j + 52) := by omega
    have e2 : j + 52 + 1 = j + 53 := rfl
    have e3 : j + 52 - 53 = j - 1 := by omega
    rw [e1, e2, e3]

theorem getD_lt {x : List ℕ} {i : ℕ} (h : i < x.length) : x.getD i 0 = x[i] := by
  rw [List.getD_eq_getElem?_getD, List.getElem?_eq_getElem h]; rfl

theorem val_testBit {x : List ℕ} (h : Words x) : ∀ {i : ℕ}, i < 64 * x.length →
    (val x).testBit i = (x.getD (i / 64) 0).testBit (i % 64) := by
  induction x with
  | nil => intro i hi; simp at hi
  | cons w ws ih =>
    intro i hi
    rw [words_cons] at h
    rw [val_cons, add_comm, show B64 = 2 ^ 64 from rfl, Nat.testBit_two_pow_mul_add _ h.1]
    by_cases hi64 : i < 64
    · rw [if_pos hi64, Nat.div_eq_of_lt hi64, Nat.mod_eq_of_lt hi64]; rfl
    · rw [if_neg hi64, ih h.2 (by simp only [List.length_cons] at hi; omega)]
      have e1 : i / 64 = (i - 64) / 64 + 1 := by omega
      have e2 : i % 64 = (i - 64) % 64 := by omega
      rw [e1, e2]; rfl

theorem mask_testBit (w b : ℕ) : ((w &&& 2 ^ b) != 0) = w.testBit b := by
  rw [Nat.and_two_pow]
  cases w.testBit b <;> simp

/-- words above the top one -/
theorem log2_val {x : List ℕ} (hx : Words x) (h0 : x ≠ []) (ht : x.getLast? ≠ some 0) :
    Nat.log2 (val x) = Nat.log2 (x.getD (x.length - 1) 0) + 64 * (x.length - 1) := by
  have hne : x.getD (x.length - 1) 0 ≠ 0 := by
    rw [List.getLast?_eq_getElem?] at ht
    rw [List.getD_eq_getElem?_getD]
    cases h : x[x.length - 1]? with
    | none =>
      rw [List.getElem?_eq_none_iff] at h
      have := List.length_pos_iff.2 h0
      omega
    | some a =>
      rw [h] at ht
      simpa using ht
  have hl : 0 < x.length := List.length_pos_iff.2 h0
  have hv : val x = val (x.take (x.length - 1)) + B64 ^ (x.length - 1) * x.getD (x.length - 1) 0 := by
    rw [← val_take_add_drop x (x.length - 1) (by omega)]
    congr 2
    have : x.drop (x.length - 1) = [x.getD (x.length - 1) 0] := by
      rw [List.drop_eq_getElem_cons (by omega), List.drop_eq_nil_of_le (by omega), getD_lt (by omega)]
    rw [this]; simp
  have hlt := val_lt (hx.take (x.length - 1))
  rw [List.length_take, Nat.min_eq_left (by omega)] at hlt
  generalize x.getD (x.length - 1) 0 = t at *
  generalize x.length - 1 = n at *
  generalize val (x.take n) = lo at *
  have e : B64 ^ n = 2 ^ (64 * n) := by rw [pow_mul]; rfl
  rw [e] at hv hlt
  have a1 : 2 ^ Nat.log2 t ≤ t := Nat.log2_self_le hne
  have a2 : t + 1 ≤ 2 ^ (Nat.log2 t + 1) := Nat.lt_log2_self
  have hN : 0 < 2 ^ (64 * n) := by positivity
  have hv0 : val x ≠ 0 := by
    rw [hv]
    have : 0 < 2 ^ (64 * n) * t := Nat.mul_pos hN (by omega)
    omega
  rw [Nat.log2_eq_iff hv0, hv]
  constructor
  · calc 2 ^ (Nat.log2 t + 64 * n) = 2 ^ (64 * n) * 2 ^ Nat.log2 t := by rw [← pow_add, add_comm]
      _ ≤ 2 ^ (64 * n) * t := Nat.mul_le_mul_left _ a1
      _ ≤ _ := by omega
  · calc lo + 2 ^ (64 * n) * t < 2 ^ (64 * n) + 2 ^ (64 * n) * t := by omega
      _ = 2 ^ (64 * n) * (t + 1) := by ring
      _ ≤ 2 ^ (64 * n) * 2 ^ (Nat.log2 t + 1) := Nat.mul_le_mul_left _ a2
      _ = 2 ^ (Nat.log2 t + 64 * n + 1) := by rw [← pow_add]; congr 1; omega

theorem WF.words' {x : List ℕ} (h : WF x) : Words x := h.words

theorem WF.top_ne {x : List ℕ} (h : WF x) (h0 : val x ≠ 0) : x.getLast? ≠ some 0 := by
  rcases h.top with h1 | h1
  · obtain ⟨w, rfl⟩ := List.length_eq_one_iff.1 h1
    simp at h0 ⊢
    exact h0
  · exact h1

theorem isZero_iff {x : List ℕ} (h : WF x) : Vuint.isZero x = true ↔ val x = 0 := by
  unfold Vuint.isZero
  constructor
  · intro h'
    rw [Bool.and_eq_true, beq_iff_eq, beq_iff_eq] at h'
    obtain ⟨w, rfl⟩ := List.length_eq_one_iff.1 h'.1
    simpa using h'.2
  · intro h0
    rcases h.top with h1 | h1
    · obtain ⟨w, rfl⟩ := List.length_eq_one_iff.1 h1
      simpa using h0
    · exfalso
      have hne : x ≠ [] := by
        have := h.pos
        rintro rfl
        simp at this
      have hl := List.length_pos_iff.2 hne
      have hv := val_take_add_drop x (x.length - 1) (by omega)
      have : x.drop (x.length - 1) = [x.getD (x.length - 1) 0] := by
        rw [List.drop_eq_getElem_cons (by omega), List.drop_eq_nil_of_le (by omega), getD_lt (by omega)]
      rw [this] at hv
      have hz : x.getD (x.length - 1) 0 = 0 := by
        by_contra hne
        have : 0 < B64 ^ (x.length - 1) * val [x.getD (x.length - 1) 0] := Nat.mul_pos (by positivity) (by rw [val_cons, val_nil]; omega)
        omega
      apply h1
      rw [List.getLast?_eq_getElem?]
      rw [List.getD_eq_getElem?_getD] at hz
      rw [List.getElem?_eq_getElem (by omega)] at hz ⊢
      simpa using hz

theorem bitLen_spec {x : List ℕ} (h : WF x) (h0 : val x ≠ 0) :
    Vuint.bitLen x = Nat.log2 (val x) + 1 + if RoundsUp (x.getD (x.length - 1) 0) then 1 else 0 := by
  have hz : Vuint.isZero x = false := by
    rw [Bool.eq_false_iff, Ne, isZero_iff h]; exact h0
  have ht := h.top_ne h0
  have hne : x ≠ [] := by
    have := h.pos
    rintro rfl
    simp at this
  have hl := List.length_pos_iff.2 hne
  have hlen := h.len
  have htop : 0 < x.getD (x.length - 1) 0 := by
    rw [List.getLast?_eq_getElem?] at ht
    rw [List.getD_eq_getElem?_getD]
    rw [List.getElem?_eq_getElem (by omega)] at ht ⊢
    simp at ht ⊢
    omega
  have hw : x.getD (x.length - 1) 0 < 2 ^ 64 := by
    apply h.words
    rw [getD_lt (by omega)]
    exact List.getElem_mem _
  have hlog : Nat.log2 (x.getD (x.length - 1) 0) < 64 := (Nat.log2_lt (by omega)).2 hw
  unfold Vuint.bitLen
  rw [hz, if_neg Bool.false_ne_true]
  dsimp only
  rw [dbl_exp htop, log2_val h.words hne ht]
  generalize Nat.log2 (x.getD (x.length - 1) 0) = k at *
  split_ifs <;> omega

end Verif
