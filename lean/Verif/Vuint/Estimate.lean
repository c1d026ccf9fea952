import Verif.Vuint.DblLemmas
import Verif.Vuint.Shift

/-! Helper lemmas: the digit estimate of the division loop never exceeds the true digit. -/

namespace Verif
namespace Dbl

theorem add_spec (x y : Dbl) (hx : 0 < x.m) (hy : 0 < y.m) :
    ∃ a b : ℕ, 0 < a ∧ 0 < b ∧ x.add y = rn a b ∧ (a : ℚ) / b = x.rv + y.rv := by
  unfold add
  set e := min x.e y.e with he
  have h1 : 0 ≤ x.e - e := by have := min_le_left x.e y.e; omega
  have h2 : 0 ≤ y.e - e := by have := min_le_right x.e y.e; omega
  set n := x.m * 2 ^ (x.e - e).toNat + y.m * 2 ^ (y.e - e).toNat with hn
  have hnpos : 0 < n := by positivity
  have hnv : (n : ℚ) * 2 ^ e = x.rv + y.rv := by
    simp only [hn, rv]
    push_cast
    rw [← zpow_toNat h1, ← zpow_toNat h2, add_mul, mul_assoc, mul_assoc,
      ← zpow_add₀ (by norm_num), ← zpow_add₀ (by norm_num)]
    simp
  simp only
  split
  · rename_i hc
    refine ⟨n * 2 ^ e.toNat, 1, by positivity, by norm_num, rfl, ?_⟩
    push_cast
    rw [← zpow_toNat hc, div_one, hnv]
  · rename_i hc
    refine ⟨n, 2 ^ (-e).toNat, hnpos, by positivity, rfl, ?_⟩
    push_cast
    rw [← zpow_toNat (by omega), zpow_neg, div_inv_eq_mul, hnv]

theorem mul_spec (x y : Dbl) (hx : 0 < x.m) (hy : 0 < y.m) :
    ∃ a b : ℕ, 0 < a ∧ 0 < b ∧ x.mul y = rn a b ∧ (a : ℚ) / b = x.rv * y.rv := by
  unfold mul
  set e := x.e + y.e with he
  have hnv : ((x.m * y.m : ℕ) : ℚ) * 2 ^ e = x.rv * y.rv := by
    simp only [rv, he]
    push_cast
    rw [zpow_add₀ (by norm_num)]
    ring
  simp only
  split
  · rename_i hc
    refine ⟨x.m * y.m * 2 ^ e.toNat, 1, by positivity, by norm_num, rfl, ?_⟩
    push_cast at *
    rw [← zpow_toNat hc, div_one, hnv]
  · rename_i hc
    refine ⟨x.m * y.m, 2 ^ (-e).toNat, by positivity, by positivity, rfl, ?_⟩
    push_cast at *
    rw [← zpow_toNat (by omega), zpow_neg, div_inv_eq_mul, hnv]

theorem div_spec (x y : Dbl) (hx : 0 < x.m) (hy : 0 < y.m) :
    ∃ a b : ℕ, 0 < a ∧ 0 < b ∧ x.div y = rn a b ∧ (a : ℚ) / b = x.rv / y.rv := by
  have hy' : (y.m : ℚ) ≠ 0 := by positivity
  unfold div
  set e := x.e - y.e with he
  have hnv : (x.m : ℚ) / y.m * 2 ^ e = x.rv / y.rv := by
    simp only [rv, he]
    rw [zpow_sub₀ (by norm_num)]
    field_simp
  simp only
  split
  · rename_i hc
    refine ⟨x.m * 2 ^ e.toNat, y.m, by positivity, hy, rfl, ?_⟩
    push_cast
    rw [← zpow_toNat hc, ← hnv]
    ring
  · rename_i hc
    refine ⟨x.m, y.m * 2 ^ (-e).toNat, hx, by positivity, rfl, ?_⟩
    push_cast
    rw [← zpow_toNat (by omega), zpow_neg, ← hnv]
    field_simp

theorem rv_pos {d : Dbl} (h : 0 < d.m) : 0 < d.rv := by
  have : (0 : ℚ) < d.m := by exact_mod_cast h
  exact mul_pos this (two_zpow_pos _)

theorem toU64_spec (d : Dbl) (h : d.rv < 2 ^ 64) :
    ∃ n : ℕ, d.toU64 = .ok n ∧ (n : ℚ) ≤ d.rv := by
  unfold toU64
  set n := (if 0 ≤ d.e then d.m * 2 ^ d.e.toNat else d.m / 2 ^ (-d.e).toNat) with hn
  have hle : (n : ℚ) ≤ d.rv := by
    rw [hn]
    split
    · rename_i hc
      push_cast
      rw [rv, zpow_toNat hc]
    · rename_i hc
      have h1 := (nat_div_le_rat d.m (2 ^ (-d.e).toNat) (by positivity)).1
      refine h1.trans (le_of_eq ?_)
      push_cast
      rw [← zpow_toNat (by omega), zpow_neg, div_inv_eq_mul, rv]
  have hlt : n < B64 := by
    have : (n : ℚ) < ((B64 : ℕ) : ℚ) := by
      refine lt_of_le_of_lt hle (lt_of_lt_of_le h ?_)
      norm_num
    exact_mod_cast this
  exact ⟨n, by simp only [hlt, if_true], hle⟩

theorem ofNat_len {H : ℕ} (hH : 0 < H) :
    Normal (ofNat H) ∧ -52 ≤ (ofNat H).e ∧ (H : ℚ) < 2 ^ 53 * 2 ^ (ofNat H).e ∧
    (2 : ℚ) ^ 51 * 2 ^ (ofNat H).e ≤ H ∧ (H < 2 ^ 53 → (ofNat H).rv = H) := by
  obtain ⟨e, q, f, h1, f0, f1, q1, q2, hn, hv⟩ := rn_char H 1 hH (by norm_num)
  have hex : H < 2 ^ 53 → (ofNat H).rv = H := by
    intro hlt
    have := rn_exact H 1 hH (by norm_num) H 0 hlt (by simp)
    simpa [ofNat] using this
  change Normal (ofNat H) at hn
  change (ofNat H).rv = _ at hv
  have hH1 : (1 : ℚ) ≤ H := by exact_mod_cast hH
  have hp := two_zpow_pos e
  have hp' := two_zpow_pos (ofNat H).e
  have hq1 : (2 : ℚ) ^ 52 ≤ q := by exact_mod_cast q1
  have hq2 : (q : ℚ) + 1 ≤ 2 ^ 53 := by exact_mod_cast q2
  have hm1 : (2 : ℚ) ^ 52 ≤ (ofNat H).m := by exact_mod_cast hn.1
  have hm2 : ((ofNat H).m : ℚ) < 2 ^ 53 := by exact_mod_cast hn.2
  simp only [Nat.cast_one, div_one] at h1
  -- the rounded value in units of 2^e
  obtain ⟨c, hc1, hc2, hc⟩ : ∃ c : ℚ, 2 ^ 52 ≤ c ∧ c ≤ 2 ^ 53 ∧
      ((ofNat H).m : ℚ) * 2 ^ (ofNat H).e = c * 2 ^ e := by
    refine ⟨_, ?_, ?_, hv⟩ <;> split <;> linarith
  have hge : e ≤ (ofNat H).e := by
    by_contra hcon
    have h3 : (2 : ℚ) ^ (ofNat H).e ≤ 2 ^ (e - 1) := zpow_le_zpow_right₀ (by norm_num) (by omega)
    rw [zpow_sub_one₀ (by norm_num)] at h3
    have h4 : ((ofNat H).m : ℚ) * 2 ^ (ofNat H).e < 2 ^ 53 * (2 ^ e * 2⁻¹) :=
      calc _ < 2 ^ 53 * (2 : ℚ) ^ (ofNat H).e := mul_lt_mul_of_pos_right hm2 hp'
        _ ≤ _ := mul_le_mul_of_nonneg_left h3 (by norm_num)
    have h5 : (2 : ℚ) ^ 52 * 2 ^ e ≤ c * 2 ^ e := mul_le_mul_of_nonneg_right hc1 hp.le
    rw [hc] at h4
    have h6 : (2 : ℚ) ^ 53 * (2 ^ e * 2⁻¹) = 2 ^ 52 * 2 ^ e := by ring
    linarith
  have hle : (ofNat H).e ≤ e + 1 := by
    by_contra hcon
    have h3 : (2 : ℚ) ^ (e + 2) ≤ 2 ^ (ofNat H).e := zpow_le_zpow_right₀ (by norm_num) (by omega)
    rw [zpow_add₀ (by norm_num)] at h3
    have h4 : (2 : ℚ) ^ 52 * (2 ^ e * 2 ^ (2 : ℤ)) ≤ c * 2 ^ e := by
      rw [← hc]
      exact mul_le_mul hm1 h3 (by positivity) (by linarith)
    have h5 : c * 2 ^ e ≤ 2 ^ 53 * 2 ^ e := mul_le_mul_of_nonneg_right hc2 hp.le
    have h6 : (2 : ℚ) ^ 52 * (2 ^ e * 2 ^ (2 : ℤ)) = 2 ^ 54 * 2 ^ e := by
      have : (2 : ℚ) ^ (2 : ℤ) = 4 := by norm_num
      rw [this]; ring
    rw [h6] at h4
    have h7 : (2 : ℚ) ^ 54 * 2 ^ e = 2 ^ 53 * 2 ^ e + 2 ^ 53 * 2 ^ e := by ring
    have h8 : (0 : ℚ) < 2 ^ 53 * 2 ^ e := by positivity
    linarith
  have hmono : (2 : ℚ) ^ e ≤ 2 ^ (ofNat H).e := zpow_le_zpow_right₀ (by norm_num) hge
  have hmono2 : (2 : ℚ) ^ (ofNat H).e ≤ 2 ^ e * 2 := by
    rw [← zpow_add_one₀ (by norm_num)]; exact zpow_le_zpow_right₀ (by norm_num) hle
  refine ⟨hn, ?_, ?_, ?_, hex⟩
  · by_contra hcon
    have h3 : (2 : ℚ) ^ e ≤ 2 ^ (-53 : ℤ) := zpow_le_zpow_right₀ (by norm_num) (by omega)
    have h4 : (q + f) * (2 : ℚ) ^ e < 2 ^ 53 * 2 ^ e := mul_lt_mul_of_pos_right (by linarith) hp
    have h5 : (2 : ℚ) ^ 53 * 2 ^ e ≤ 2 ^ 53 * 2 ^ (-53 : ℤ) := mul_le_mul_of_nonneg_left h3 (by norm_num)
    have h6 : (2 : ℚ) ^ 53 * 2 ^ (-53 : ℤ) = 1 := by norm_num
    linarith
  · rw [h1]
    calc (q + f) * (2 : ℚ) ^ e < 2 ^ 53 * 2 ^ e := mul_lt_mul_of_pos_right (by linarith) hp
      _ ≤ _ := mul_le_mul_of_nonneg_left hmono (by norm_num)
  · rw [h1]
    calc (2 : ℚ) ^ 51 * 2 ^ (ofNat H).e ≤ 2 ^ 51 * (2 ^ e * 2) :=
          mul_le_mul_of_nonneg_left hmono2 (by norm_num)
      _ = 2 ^ 52 * 2 ^ e := by ring
      _ ≤ (q + f) * 2 ^ e := mul_le_mul_of_nonneg_right (by linarith) hp.le

theorem toBits_exp {d : Dbl} (hn : Normal d) (he : -52 ≤ d.e) :
    (d.toBits / 2 ^ 52 - 1023 + 1 : ℕ) = (d.e + 53).toNat := by
  unfold toBits
  have h1 := hn.1
  have h2 := hn.2
  rw [Nat.mul_comm, Nat.mul_add_div (by positivity), Nat.div_eq_of_lt (by omega)]
  omega

/-- `xt` is a 53-bit value, `yt` an upward rounded approximation of `yh`: the rounded quotient does
not exceed `xt / yh`. -/
theorem div_le (xt yt : Dbl) (yh : ℚ) (hx : Normal xt) (hy : 0 < yt.m) (hyh : 0 < yh)
    (h : yh * (1 + 1 / 2 ^ 53) ≤ yt.rv ∨ ((∃ k : ℤ, yt.rv = 2 ^ k) ∧ yh ≤ yt.rv)) :
    (xt.div yt).rv ≤ xt.rv / yh := by
  have hxm : 0 < xt.m := by have := hx.1; omega
  have hxp := rv_pos hxm
  have hyp := rv_pos hy
  obtain ⟨a, b, ha, hb, hd, hv⟩ := div_spec xt yt hxm hy
  rw [hd]
  rcases h with h | ⟨⟨k, hk⟩, h⟩
  · have h1 := rn_le a b ha hb
    rw [hv] at h1
    refine h1.trans ?_
    rw [div_mul_eq_mul_div, div_le_div_iff₀ hyp hyh]
    calc xt.rv * (1 + 1 / 2 ^ 53) * yh = xt.rv * (yh * (1 + 1 / 2 ^ 53)) := by ring
      _ ≤ xt.rv * yt.rv := mul_le_mul_of_nonneg_left h hxp.le
  · have h1 := rn_exact a b ha hb xt.m (xt.e - k) hx.2 (by
      rw [hv, hk, rv, zpow_sub₀ (by norm_num)]; ring)
    rw [h1, hv]
    exact div_le_div_of_nonneg_left hxp.le hyh h

/-- multiplying by 2^64 is exact -/
theorem mul_B64 (xt : Dbl) (hx : Normal xt) :
    Normal (xt.mul ((ofNat (2 ^ 63)).mul (ofNat 2))) ∧
    (xt.mul ((ofNat (2 ^ 63)).mul (ofNat 2))).rv = xt.rv * 2 ^ 64 := by
  have hc : (ofNat (2 ^ 63)).mul (ofNat 2) = ⟨2 ^ 52, 12⟩ := by decide +kernel
  have hxm : 0 < xt.m := by have := hx.1; omega
  rw [hc]
  obtain ⟨a, b, ha, hb, hd, hv⟩ := mul_spec xt ⟨2 ^ 52, 12⟩ hxm (by norm_num)
  have hcv : (⟨2 ^ 52, 12⟩ : Dbl).rv = 2 ^ 64 := by
    simp only [rv]; push_cast
    norm_num
  rw [hcv] at hv
  rw [hd]
  refine ⟨rn_normal a b ha hb, ?_⟩
  rw [rn_exact a b ha hb xt.m (xt.e + 64) hx.2 (by
    rw [hv, rv, zpow_add₀ (by norm_num)]
    have : (2 : ℚ) ^ (64 : ℤ) = 2 ^ 64 := by norm_cast
    rw [this]; ring), hv]

end Dbl

namespace Vuint
open Dbl

/-- value of a word vector in units of its top word -/
def head (x : List ℕ) : ℚ := (val x : ℚ) / ((B64 : ℕ) : ℚ) ^ (x.length - 1)

theorem B64_cast : ((B64 : ℕ) : ℚ) = 2 ^ 64 := by norm_num

/-- the truncated approximation: at most 53 bits, error below one unit in the last place -/
theorem getApp_aux (x : List ℕ) (hw : Words x) (hl : 2 ≤ x.length)
    (hH : x.getD (x.length - 1) 0 ≠ 0) :
    ∃ (M : ℕ) (t : Dbl) (len : ℕ), 0 < M ∧ M < 2 ^ 53 ∧ Normal t ∧
      t.rv = M * 2 ^ ((len : ℤ) - 53) ∧
      (M : ℚ) * 2 ^ ((len : ℤ) - 53) ≤ head x ∧ head x < (M + 1) * 2 ^ ((len : ℤ) - 53) ∧
      getApp x false = t ∧
      getApp x true = t.add (Dbl.ofBits ((len + 1022 - 52 + 1) * 2 ^ 52)) := by
  -- split x = lo ++ [L, H]
  obtain ⟨lo, L, H, rfl⟩ : ∃ lo L H, x = lo ++ [L, H] := by
    have h1 : x ≠ [] := List.ne_nil_of_length_pos (by omega)
    have h2 : x.dropLast ≠ [] := List.ne_nil_of_length_pos (by simp; omega)
    refine ⟨x.dropLast.dropLast, x.dropLast.getLast h2, x.getLast h1, ?_⟩
    have e1 := List.dropLast_append_getLast h2
    have e2 := List.dropLast_append_getLast h1
    calc x = x.dropLast ++ [x.getLast h1] := e2.symm
      _ = (x.dropLast.dropLast ++ [x.dropLast.getLast h2]) ++ [x.getLast h1] := by rw [e1]
      _ = _ := by simp
  have hlen : (lo ++ [L, H]).length = lo.length + 2 := by simp
  have gH : (lo ++ [L, H]).getD ((lo ++ [L, H]).length - 1) 0 = H := by
    rw [hlen]; simp [List.getD_eq_getElem?_getD]
  have gL : (lo ++ [L, H]).getD ((lo ++ [L, H]).length - 2) 0 = L := by
    rw [hlen]; simp [List.getD_eq_getElem?_getD]
  rw [gH] at hH
  obtain ⟨wlo, wLH⟩ := words_append.1 hw
  have hHB : H < B64 := (words_cons.1 (words_cons.1 wLH).2).1
  have hLB : L < B64 := (words_cons.1 wLH).1
  have hlo := val_lt wlo
  have hBpos : (0 : ℚ) < 2 ^ 64 := by norm_num
  -- head = H + (L + ε)/2^64, 0 ≤ ε < 1
  obtain ⟨ε, ε0, ε1, hhead⟩ : ∃ ε : ℚ, 0 ≤ ε ∧ ε < 1 ∧
      head (lo ++ [L, H]) = H + (L + ε) / 2 ^ 64 := by
    have hP : (0 : ℚ) < (2 ^ 64) ^ lo.length := by positivity
    refine ⟨(val lo : ℚ) / (2 ^ 64) ^ lo.length, by positivity, ?_, ?_⟩
    · rw [div_lt_one hP, ← B64_cast]
      exact_mod_cast hlo
    · unfold head
      rw [hlen, val_append, B64_cast]
      have : lo.length + 2 - 1 = lo.length + 1 := by omega
      rw [this, pow_succ]
      simp only [val_cons, val_nil]
      push_cast
      have e64 : (18446744073709551616 : ℚ) = 2 ^ 64 := by norm_num
      rw [e64]
      field_simp
      ring
  obtain ⟨hn, he, hup, hdn, hex⟩ := ofNat_len (Nat.pos_of_ne_zero hH)
  have hlenv := toBits_exp hn he
  set d := ofNat H with hd
  set len := (d.e + 53).toNat with hlendef
  have hle : (len : ℤ) - 53 = d.e := by omega
  have hp := two_zpow_pos d.e
  by_cases hc : len < 53
  · -- exact conversion, extra bits from L
    have hH53 : H < 2 ^ 53 := by
      have : (H : ℚ) < 2 ^ 53 := by
        refine hup.trans_le ?_
        have : (2 : ℚ) ^ d.e ≤ 1 := zpow_le_one_of_nonpos₀ (by norm_num) (by omega)
        calc (2 : ℚ) ^ 53 * 2 ^ d.e ≤ 2 ^ 53 * 1 := mul_le_mul_of_nonneg_left this (by positivity)
          _ = 2 ^ 53 := mul_one _
      exact_mod_cast this
    have hrv := hex hH53
    -- m = H * 2^(53-len)
    have hm : d.m = 2 ^ (53 - len) * H := by
      have h1 : (d.m : ℚ) * 2 ^ d.e = H := hrv
      have h2 : (d.m : ℚ) = H * 2 ^ (-d.e) := by
        rw [zpow_neg, ← h1]; field_simp
      rw [zpow_toNat (by omega)] at h2
      have h3 : (-d.e).toNat = 53 - len := by omega
      rw [h3] at h2
      have : d.m = H * 2 ^ (53 - len) := by exact_mod_cast h2
      rw [this, Nat.mul_comm]
    set l := L / 2 ^ (len + 11) with hl'
    have hlt : l < 2 ^ (53 - len) := by
      rw [hl', Nat.div_lt_iff_lt_mul (by positivity), ← pow_add]
      have : 53 - len + (len + 11) = 64 := by omega
      rw [this]; exact hLB
    -- the OR is an addition
    have hbits : d.toBits = 2 ^ (53 - len) * ((d.e + 1075).toNat * 2 ^ (len - 1) + (H - 2 ^ (len - 1))) := by
      have hlen1 : 1 ≤ len := by omega
      have e1 : 2 ^ (53 - len) * 2 ^ (len - 1) = 2 ^ 52 := by
        rw [← pow_add, show 53 - len + (len - 1) = 52 by omega]
      unfold toBits
      rw [hm, Nat.mul_add, Nat.mul_sub, e1]
      rw [← e1]; ring
    have hor : d.toBits ||| l = d.toBits + l := by
      rw [hbits]
      exact (Nat.two_pow_add_eq_or_of_lt hlt _).symm
    have hm53 : d.m + l < 2 ^ 53 := by
      have h1 : H < 2 ^ len := by
        by_contra hcon
        have : 2 ^ (53 - len) * 2 ^ len ≤ 2 ^ (53 - len) * H := Nat.mul_le_mul_left _ (by omega)
        rw [← hm, ← pow_add] at this
        have e : 53 - len + len = 53 := by omega
        rw [e] at this
        have := hn.2
        omega
      have h2 : 2 ^ (53 - len) * (H + 1) ≤ 2 ^ (53 - len) * 2 ^ len := Nat.mul_le_mul_left _ h1
      rw [← pow_add] at h2
      have e : 53 - len + len = 53 := by omega
      rw [e, Nat.mul_add, ← hm] at h2
      omega
    have hof : Dbl.ofBits (d.toBits + l) = ⟨d.m + l, d.e⟩ := by
      have h1 := hn.1
      have e1 : d.toBits + l = 2 ^ 52 * (d.e + 1075).toNat + (d.m - 2 ^ 52 + l) := by
        unfold toBits; ring
      unfold Dbl.ofBits
      rw [e1]
      have e2 : (2 ^ 52 * (d.e + 1075).toNat + (d.m - 2 ^ 52 + l)) % 2 ^ 52 = d.m - 2 ^ 52 + l := by
        rw [Nat.mul_add_mod, Nat.mod_eq_of_lt (by omega)]
      have e3 : (2 ^ 52 * (d.e + 1075).toNat + (d.m - 2 ^ 52 + l)) / 2 ^ 52 = (d.e + 1075).toNat := by
        rw [Nat.mul_add_div (by positivity), Nat.div_eq_of_lt (by omega), Nat.add_zero]
      rw [e2, Dbl.mk.injEq]
      refine ⟨by omega, ?_⟩
      · have : ((2 ^ 52 * (d.e + 1075).toNat + (d.m - 2 ^ 52 + l) : ℕ) : ℤ) / 2 ^ 52
            = (((2 ^ 52 * (d.e + 1075).toNat + (d.m - 2 ^ 52 + l)) / 2 ^ 52 : ℕ) : ℤ) := by
          push_cast; rfl
        rw [this, e3]
        omega
    have hMv : ((d.m + l : ℕ) : ℚ) * 2 ^ d.e = H + l * 2 ^ d.e := by
      push_cast
      rw [add_mul, ← hrv]; rfl
    -- 2^(len+11) = 2^64 * 2^d.e
    have hsc : ((2 : ℚ) ^ (len + 11)) = 2 ^ 64 * 2 ^ d.e := by
      have e1 : (2 : ℚ) ^ (len + 11) = 2 ^ ((len + 11 : ℕ) : ℤ) := by rw [zpow_natCast]
      have e2 : (2 : ℚ) ^ 64 = 2 ^ (64 : ℤ) := by norm_cast
      rw [e1, e2, ← zpow_add₀ (by norm_num)]
      rw [show (64 : ℤ) + d.e = ((len + 11 : ℕ) : ℤ) by push_cast; omega]
    refine ⟨d.m + l, ⟨d.m + l, d.e⟩, len, Nat.add_pos_left (lt_of_lt_of_le (by positivity) hn.1) _, hm53,
      ⟨le_trans hn.1 (Nat.le_add_right _ _), hm53⟩, ?_, ?_, ?_, ?_, ?_⟩
    · rw [hle]; rfl
    · rw [hle, hMv, hhead]
      have h1 : l * 2 ^ (len + 11) ≤ L := Nat.div_mul_le_self _ _
      have h2 : (l : ℚ) * 2 ^ (len + 11) ≤ L := by exact_mod_cast h1
      rw [hsc] at h2
      have h3 : (l : ℚ) * 2 ^ d.e ≤ (L + ε) / 2 ^ 64 := by
        rw [le_div_iff₀ hBpos]
        calc (l : ℚ) * 2 ^ d.e * 2 ^ 64 = l * (2 ^ 64 * 2 ^ d.e) := by ring
          _ ≤ (L : ℚ) := h2
          _ ≤ L + ε := by linarith
      linarith
    · rw [hle, add_mul, hMv, hhead]
      have h1 : L < (l + 1) * 2 ^ (len + 11) := by
        rw [Nat.mul_comm]; exact Nat.lt_mul_div_succ L (by positivity)
      have h2 : (L : ℚ) + 1 ≤ (l + 1) * 2 ^ (len + 11) := by exact_mod_cast h1
      rw [hsc] at h2
      have h3 : (L + ε) / 2 ^ 64 < (l + 1) * (2 : ℚ) ^ d.e := by
        rw [div_lt_iff₀ hBpos]
        calc (L : ℚ) + ε < L + 1 := by linarith
          _ ≤ (l + 1) * (2 ^ 64 * 2 ^ d.e) := h2
          _ = _ := by ring
      linarith
    · unfold getApp
      simp only [gH, gL, ← hd, hlenv, hc, if_true, ← hl', hor, hof]
      simp
    · unfold getApp
      simp only [gH, gL, ← hd, hlenv, hc, if_true, ← hl', hor, hof]
  · -- len ≥ 53
    have hc' : 0 ≤ d.e := by omega
    set k := len - 53 with hk
    have hke : d.e = (k : ℤ) := by omega
    have h2k : (2 : ℚ) ^ d.e = 2 ^ k := by rw [hke, zpow_natCast]
    have hM53 : H / 2 ^ k < 2 ^ 53 := by
      rw [Nat.div_lt_iff_lt_mul (by positivity)]
      rw [h2k] at hup
      exact_mod_cast hup
    have hM0 : 0 < H / 2 ^ k := by
      apply Nat.div_pos _ (by positivity)
      rw [h2k] at hdn
      have : (2 : ℚ) ^ k ≤ H := by
        have : (0 : ℚ) < 2 ^ k := by positivity
        linarith
      exact_mod_cast this
    have hpos : 0 < H / 2 ^ k * 2 ^ k := by positivity
    have hrn := rn_normal (H / 2 ^ k * 2 ^ k) 1 hpos (by norm_num)
    have hrv := rn_exact (H / 2 ^ k * 2 ^ k) 1 hpos (by norm_num) (H / 2 ^ k) k hM53 (by
      push_cast; rw [zpow_natCast, div_one])
    refine ⟨H / 2 ^ k, ofNat (H / 2 ^ k * 2 ^ k), len, hM0, hM53, hrn, ?_, ?_, ?_, ?_, ?_⟩
    · rw [hle, h2k]
      change (rn _ 1).rv = _
      rw [hrv]; push_cast; ring
    · rw [hle, h2k, hhead]
      have h1 : H / 2 ^ k * 2 ^ k ≤ H := Nat.div_mul_le_self _ _
      have h2 : ((H / 2 ^ k : ℕ) : ℚ) * 2 ^ k ≤ H := by exact_mod_cast h1
      have h3 : 0 ≤ (L + ε) / 2 ^ 64 := by positivity
      linarith
    · rw [hle, h2k, hhead]
      have h1 : H < (H / 2 ^ k + 1) * 2 ^ k := by
        rw [Nat.mul_comm]; exact Nat.lt_mul_div_succ H (by positivity)
      have h2 : (H : ℚ) + 1 ≤ (((H / 2 ^ k : ℕ) : ℚ) + 1) * 2 ^ k := by exact_mod_cast h1
      have h3 : (L + ε) / 2 ^ 64 < 1 := by
        rw [div_lt_one hBpos]
        have : (L : ℚ) + 1 ≤ ((B64 : ℕ) : ℚ) := by exact_mod_cast hLB
        rw [B64_cast] at this
        linarith
      linarith
    · unfold getApp
      simp only [gH, ← hd, hlenv, hc, if_false, ← hk]
      simp
    · unfold getApp
      simp only [gH, ← hd, hlenv, hc, if_false, ← hk, if_true]

/-- `GetApp(x, false)` is a lower approximation -/
theorem getApp_low (x : List ℕ) (hw : Words x) (hl : 2 ≤ x.length)
    (hH : x.getD (x.length - 1) 0 ≠ 0) :
    Normal (getApp x false) ∧ (getApp x false).rv ≤ head x := by
  obtain ⟨M, t, len, -, -, hn, hv, hlo, -, hf, -⟩ := getApp_aux x hw hl hH
  rw [hf]
  exact ⟨hn, hv ▸ hlo⟩

/-- `GetApp(y, true)` exceeds `y` by enough to absorb the rounding of the quotient -/
theorem getApp_up (y : List ℕ) (hw : Words y) (hl : 2 ≤ y.length)
    (hH : y.getD (y.length - 1) 0 ≠ 0) :
    0 < (getApp y true).m ∧ (head y * (1 + 1 / 2 ^ 53) ≤ (getApp y true).rv ∨
      ((∃ k : ℤ, (getApp y true).rv = 2 ^ k) ∧ head y ≤ (getApp y true).rv)) := by
  obtain ⟨M, t, len, hM0, hM, hn, hv, hlo, hhi, -, htr⟩ := getApp_aux y hw hl hH
  rw [htr]
  set u : Dbl := Dbl.ofBits ((len + 1022 - 52 + 1) * 2 ^ 52) with hu
  have hum : u = ⟨2 ^ 52, (len : ℤ) - 104⟩ := by
    rw [hu]
    unfold Dbl.ofBits
    rw [Dbl.mk.injEq]
    refine ⟨by rw [Nat.mul_mod_left, Nat.add_zero], ?_⟩
    · push_cast
      rw [Int.mul_ediv_cancel _ (by norm_num)]
      omega
  set j : ℤ := (len : ℤ) - 53 with hj
  have hp := two_zpow_pos j
  have huv : u.rv = 2 * 2 ^ j := by
    rw [hum]
    simp only [rv]
    have e1 : (len : ℤ) - 104 = j - 51 := by omega
    rw [e1, zpow_sub₀ (by norm_num)]
    push_cast
    norm_num
    ring
  obtain ⟨a, b, ha, hb, hadd, hsum⟩ := Dbl.add_spec t u (by have := hn.1; omega) (by rw [hum]; norm_num)
  have hsum' : (a : ℚ) / b = ((M : ℚ) + 2) * 2 ^ j := by rw [hsum, hv, huv]; ring
  rw [hadd]
  have hnorm := rn_normal a b ha hb
  refine ⟨by have := hnorm.1; omega, ?_⟩
  have hMq : (M : ℚ) + 1 ≤ 2 ^ 53 := by exact_mod_cast hM
  -- common bound: head y < 2^53 * 2^j
  have hhd : head y < 2 ^ 53 * 2 ^ j := lt_of_lt_of_le hhi (mul_le_mul_of_nonneg_right hMq hp.le)
  have habs : head y * (1 + 1 / 2 ^ 53) ≤ ((M : ℚ) + 2) * 2 ^ j := by
    have h1 : head y * (1 / 2 ^ 53) ≤ 2 ^ j := by
      rw [mul_one_div, div_le_iff₀ (by norm_num)]
      linarith
    have h2 : ((M : ℚ) + 2) * 2 ^ j = (M + 1) * 2 ^ j + 2 ^ j := by ring
    rw [mul_add, mul_one, h2]
    linarith
  by_cases hc : M + 2 < 2 ^ 53
  · left
    rw [rn_exact a b ha hb (M + 2) j hc (by rw [hsum']; push_cast; ring), hsum']
    exact habs
  · by_cases hc2 : M + 2 = 2 ^ 53
    · left
      have h53 : (M : ℚ) + 2 = 2 ^ 53 := by exact_mod_cast hc2
      rw [rn_exact a b ha hb 1 (j + 53) (by norm_num) (by
        rw [hsum', h53, zpow_add₀ (by norm_num)]
        have : (2 : ℚ) ^ (53 : ℤ) = 2 ^ 53 := by norm_cast
        rw [this]; push_cast; ring), hsum']
      exact habs
    · right
      have h53 : (M : ℚ) + 2 = 2 ^ 53 + 1 := by
        have : M + 2 = 2 ^ 53 + 1 := by omega
        exact_mod_cast this
      have ht := rn_tie a b ha hb j (by rw [hsum', h53])
      rw [ht]
      refine ⟨⟨j + 53, ?_⟩, hhd.le⟩
      rw [zpow_add₀ (by norm_num)]
      have : (2 : ℚ) ^ (53 : ℤ) = 2 ^ 53 := by norm_cast
      rw [this]; ring

end Vuint
end Verif
