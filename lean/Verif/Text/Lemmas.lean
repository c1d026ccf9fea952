import Verif.Text.Model
import Verif.Vuint.ProgLemmas
import Mathlib.Data.Nat.Digits.Lemmas
import Mathlib.Data.List.TakeWhile

/-! Lemmas on the text form of `Vuint`. -/

namespace Verif.Text

open Verif

/-! ### numerals -/

theorem foldl_numVal (b : ℕ) (s : List Char) : ∀ a, s.foldl (fun a c => b * a + dig c) a = a * b ^ s.length + numVal b s := by
  induction s with
  | nil => intro a; simp [numVal]
  | cons c s ih =>
    intro a
    have : numVal b (c :: s) = dig c * b ^ s.length + numVal b s := by
      show s.foldl _ (b * 0 + dig c) = _
      rw [ih]; simp
    rw [List.foldl_cons, ih, this, List.length_cons]; ring

theorem numVal_append (b : ℕ) (s t : List Char) : numVal b (s ++ t) = numVal b s * b ^ t.length + numVal b t := by
  unfold numVal
  rw [List.foldl_append, foldl_numVal]; rfl

theorem numVal_single (b : ℕ) (c : Char) : numVal b [c] = dig c := by simp [numVal]

theorem numVal_lt {b : ℕ} : ∀ {s : List Char}, (∀ c ∈ s, isDig b c = true) → numVal b s < b ^ s.length := by
  intro s
  induction s with
  | nil => intro _; simp [numVal]
  | cons c s ih =>
    intro h
    have hc : dig c < b := by simpa [isDig] using h c (by simp)
    have := ih (fun d hd => h d (by simp [hd]))
    rw [show c :: s = [c] ++ s from rfl, numVal_append, numVal_single, List.singleton_append, List.length_cons, pow_succ]
    calc dig c * b ^ s.length + numVal b s < dig c * b ^ s.length + b ^ s.length := by omega
      _ = (dig c + 1) * b ^ s.length := by ring
      _ ≤ b * b ^ s.length := Nat.mul_le_mul_right _ hc
      _ = _ := by ring

theorem dig_digitChar : ∀ d < 16, dig (Nat.digitChar d) = d := by decide

theorem toDigits_props {b : ℕ} (h1 : 1 < b) (h2 : b ≤ 16) : ∀ n : ℕ,
    numVal b (Nat.toDigits b n) = n ∧ (∀ c ∈ Nat.toDigits b n, isDig b c = true) := by
  intro n
  induction n using Nat.strong_induction_on with
  | _ n ih =>
    rw [Nat.toDigits_eq_if h1]
    split
    · rename_i h
      refine ⟨by rw [numVal_single, dig_digitChar n (by omega)], ?_⟩
      intro c hc
      rw [List.mem_singleton] at hc
      subst hc
      simp [isDig, dig_digitChar n (by omega), h]
    · rename_i h
      have hlt : n / b < n := Nat.div_lt_self (by omega) h1
      have hm : n % b < b := Nat.mod_lt _ (by omega)
      obtain ⟨a1, a2⟩ := ih _ hlt
      constructor
      · rw [numVal_append, a1, numVal_single, dig_digitChar _ (by omega)]
        simp only [List.length_singleton, pow_one]
        rw [Nat.mul_comm]; exact Nat.div_add_mod n b
      · intro c hc
        rw [List.mem_append, List.mem_singleton] at hc
        rcases hc with hc | hc
        · exact a2 c hc
        · subst hc
          simp [isDig, dig_digitChar _ (show n % b < 16 by omega), hm]

theorem digitChar_ne_zero : ∀ d < 16, 0 < d → Nat.digitChar d ≠ '0' := by decide

theorem toDigits_head {b : ℕ} (h1 : 1 < b) (h2 : b ≤ 16) : ∀ n : ℕ, 0 < n → ∃ c r, Nat.toDigits b n = c :: r ∧ c ≠ '0' := by
  intro n
  induction n using Nat.strong_induction_on with
  | _ n ih =>
    intro hn
    rw [Nat.toDigits_eq_if h1]
    split
    · exact ⟨_, [], rfl, digitChar_ne_zero n (by omega) hn⟩
    · rename_i h
      obtain ⟨c, r, e, hc⟩ := ih (n / b) (Nat.div_lt_self hn h1) (Nat.div_pos (by omega) (by omega))
      exact ⟨c, r ++ [_], by rw [e]; rfl, hc⟩

theorem pad_step (k : ℕ) (s : List Char) (c : Char) : pad (k + 1) (s ++ [c]) = pad k s ++ [c] := by
  unfold pad
  rw [List.length_append, List.length_singleton, Nat.add_sub_add_right, List.append_assoc]

theorem toDigits_split {b : ℕ} (hb : 1 < b) {hi : ℕ} (hpos : 0 < hi) : ∀ (k : ℕ) (lo : ℕ), lo < b ^ (k + 1) →
    Nat.toDigits b (hi * b ^ (k + 1) + lo) = Nat.toDigits b hi ++ pad (k + 1) (Nat.toDigits b lo) := by
  intro k
  induction k with
  | zero =>
    intro lo hlo
    rw [zero_add, pow_one] at *
    rw [Nat.mul_comm, ← Nat.toDigits_append_toDigits hb hpos hlo, Nat.toDigits_of_lt_base hlo]
    rfl
  | succ k ih =>
    intro lo hlo
    have hl' : lo / b < b ^ (k + 1) := by
      rw [Nat.div_lt_iff_lt_mul (by omega)]; rwa [pow_succ] at hlo
    have hm : lo % b < b := Nat.mod_lt _ (by omega)
    have e : hi * b ^ (k + 1 + 1) + lo = b * (hi * b ^ (k + 1) + lo / b) + lo % b := by
      conv_lhs => rw [← Nat.div_add_mod lo b]
      ring
    have hpos' : 0 < hi * b ^ (k + 1) + lo / b := by
      exact Nat.add_pos_left (Nat.mul_pos hpos (Nat.pow_pos (by omega))) _
    rw [e, ← Nat.toDigits_append_toDigits hb hpos' hm, ih _ hl', List.append_assoc]
    congr 1
    rw [Nat.toDigits_of_lt_base hm]
    rcases Nat.lt_or_ge lo b with h | h
    · rw [Nat.div_eq_of_lt h, Nat.mod_eq_of_lt h, Nat.toDigits_of_lt_base h, Nat.toDigits_zero,
        show [Nat.digitChar lo] = [] ++ [Nat.digitChar lo] from rfl, pad_step]
      congr 1
      unfold pad
      simp only [List.length_singleton, List.length_nil, Nat.sub_zero, List.append_nil]
      rw [show k + 1 - 1 = k from rfl, ← List.replicate_succ']
    · rw [Nat.toDigits_of_base_le hb h, pad_step]

/-- concatenation of the padded chunks -/
theorem fmt_chunks {b k : ℕ} (hb : 1 < b) : ∀ (rest : List ℕ) (top : ℕ), 0 < top → (∀ r ∈ rest, r < b ^ (k + 1)) →
    fmt b top ++ (rest.map fun r => pad (k + 1) (fmt b r)).flatten =
      Nat.toDigits b (rest.foldl (fun a r => a * b ^ (k + 1) + r) top) := by
  intro rest
  induction rest with
  | nil => intro top _ _; simp [fmt]
  | cons r rest ih =>
    intro top ht h
    have hr := h r (by simp)
    rw [List.map_cons, List.flatten_cons, List.foldl_cons, ← List.append_assoc]
    have e : fmt b top ++ pad (k + 1) (fmt b r) = fmt b (top * b ^ (k + 1) + r) := by
      unfold fmt; rw [toDigits_split hb ht k r hr]
    rw [e]
    refine ih _ ?_ (fun q hq => h q (by simp [hq]))
    have : 0 < top * b ^ (k + 1) := Nat.mul_pos ht (Nat.pow_pos (by omega))
    omega

theorem foldl_rev (B : ℕ) (xs : List ℕ) : xs.reverse.foldl (fun a r => a * B + r) 0 = digitsVal B xs := by
  induction xs with
  | nil => rfl
  | cons x xs ih =>
    rw [List.reverse_cons, List.foldl_append, ih, List.foldl_cons, List.foldl_nil, digitsVal]; ring

/-! ### output -/

theorem decChunks_spec : ∀ (fuel : ℕ) (x : List ℕ), WF x → val x < 2 ^ fuel →
    decChunks (fuel + 1) x = .ok (Nat.digits 1000000000 (val x)) := by
  intro fuel
  induction fuel with
  | zero =>
    intro x hx h
    have h0 : val x = 0 := by simpa using h
    unfold decChunks
    have : ¬ (Vuint.compare x [0] > 0) := by
      unfold Vuint.compare
      rcases cmp_spec hx (show WF [0] by decide) with h | h | h
      · omega
      · rw [h0] at h; omega
      · omega
    rw [if_neg this, h0, Nat.digits_zero]
  | succ fuel ih =>
    intro x hx h
    unfold decChunks
    by_cases h0 : val x = 0
    · have : ¬ (Vuint.compare x [0] > 0) := by
        unfold Vuint.compare
        rcases cmp_spec hx (show WF [0] by decide) with h | h | h
        · omega
        · rw [h0] at h; omega
        · omega
      rw [if_neg this, h0, Nat.digits_zero]
    · have : Vuint.compare x [0] > 0 := by
        unfold Vuint.compare
        have hv : val [0] = 0 := by simp
        rcases cmp_spec hx (show WF [0] by decide) with h | h | h <;> omega
      rw [if_pos this]
      obtain ⟨q, r, e, wq, vq, vr⟩ := Vuint.divUnit_spec hx (y := 1000000000) (by norm_num)
      rw [e, Res.bind_ok]
      dsimp only
      have hq : val q < 2 ^ fuel := by
        rw [vq]
        have : 2 ^ (fuel + 1) = 2 ^ fuel * 2 := pow_succ 2 fuel
        omega
      rw [ih q wq hq, Res.bind_ok, vq, vr, Nat.mod_eq_of_lt (show val x % 1000000000 < 2 ^ 32 by omega)]
      conv_rhs => rw [Nat.digits_def' (by norm_num) (by omega)]
      rfl

theorem digitsVal_digits (B n : ℕ) : digitsVal B (Nat.digits B n) = n := by
  have : ∀ xs : List ℕ, digitsVal B xs = Nat.ofDigits B xs := by
    intro xs
    induction xs with
    | nil => rfl
    | cons x xs ih => rw [Nat.ofDigits_cons, digitsVal, ih]
  rw [this, Nat.ofDigits_digits]

theorem toDec_spec {x : List ℕ} (hx : WF x) : toDec x = .ok (Nat.toDigits 10 (val x)) := by
  have hlt : val x < 2 ^ (64 * x.length) := by
    have := hx.val_lt
    rwa [show B64 = 2 ^ 64 from by norm_num, ← pow_mul] at this
  unfold toDec
  rw [decChunks_spec _ x hx hlt, Res.bind_ok]
  by_cases h0 : val x = 0
  · rw [h0, Nat.digits_zero]; rfl
  · have hne : Nat.digits 1000000000 (val x) ≠ [] := Nat.digits_ne_nil_iff_ne_zero.2 h0
    have hlast : ∀ h, (Nat.digits 1000000000 (val x)).getLast h ≠ 0 := fun _ => Nat.getLast_digit_ne_zero 1000000000 h0
    have hd : ∀ d ∈ Nat.digits 1000000000 (val x), d < 1000000000 := fun d hd => Nat.digits_lt_base (by norm_num) hd
    have hv := foldl_rev 1000000000 (Nat.digits 1000000000 (val x))
    rw [digitsVal_digits] at hv
    generalize Nat.digits 1000000000 (val x) = t at *
    obtain ⟨ys, y, rfl⟩ : ∃ ys y, t = ys ++ [y] := ⟨t.dropLast, t.getLast hne, (List.dropLast_append_getLast hne).symm⟩
    have hlast := hlast hne
    rw [List.getLast_append_singleton] at hlast
    rw [List.reverse_append, List.reverse_singleton, List.singleton_append] at *
    dsimp only
    rw [List.foldl_cons, Nat.zero_mul, Nat.zero_add] at hv
    have := fmt_chunks (b := 10) (k := 8) (by norm_num) ys.reverse y (by omega)
      (fun r hr => by
        have := hd r (by simp at hr; simp [hr])
        norm_num; omega)
    rw [show (8 : ℕ) + 1 = 9 from rfl, show (10 : ℕ) ^ 9 = 1000000000 from by norm_num] at this
    rw [Res.pure_eq, this, hv]

theorem toHex_spec {x : List ℕ} (hx : WF x) : toHex x = ['0', 'x'] ++ Nat.toDigits 16 (val x) := by
  have hpos := hx.pos
  by_cases h0 : val x = 0
  · have : x = [0] := WF.ext hx (by decide) (by rw [h0]; simp)
    subst this
    unfold toHex fmt
    simp
  · have hne : x ≠ [] := List.length_pos_iff.1 hpos
    have hw := hx.words
    have ht : x.getLast? ≠ some 0 := by
      rcases hx.top with h1 | h1
      · obtain ⟨w, rfl⟩ := List.length_eq_one_iff.1 h1
        simp at h0 ⊢
        exact h0
      · exact h1
    have hv := foldl_rev (2 ^ 64) x
    rw [digitsVal_64] at hv
    unfold toHex
    obtain ⟨ys, y, rfl⟩ : ∃ ys y, x = ys ++ [y] := ⟨x.dropLast, x.getLast hne, (List.dropLast_append_getLast hne).symm⟩
    rw [List.getLast?_append] at ht
    simp at ht
    rw [List.reverse_append, List.reverse_singleton, List.singleton_append] at *
    dsimp only
    rw [List.foldl_cons, Nat.zero_mul, Nat.zero_add] at hv
    have := fmt_chunks (b := 16) (k := 15) (by norm_num) ys.reverse y (by omega)
      (fun r hr => by
        have := hw r (by simp at hr; simp [hr])
        norm_num at this ⊢; exact this)
    rw [List.append_assoc, this]
    congr 2

/-! ### input -/

theorem isSpace_dig {c : Char} (h : isSpace c = true) : dig c = 99 := by
  unfold isSpace at h
  rw [Bool.or_eq_true, beq_iff_eq, Bool.and_eq_true, decide_eq_true_eq, decide_eq_true_eq] at h
  rcases h with h | ⟨h1, h2⟩
  · subst h; decide
  · unfold dig
    rw [if_neg (by omega), if_neg (by omega), if_neg (by omega)]

theorem not_isDig {b : ℕ} (hb : b ≤ 16) {c : Char} (h : 16 ≤ dig c) : isDig b c = false := by
  unfold isDig
  simp; omega

theorem strto_digits {b : ℕ} (hb : b ≤ 16) {s : List Char} (hne : s ≠ []) (h : ∀ c ∈ s, isDig b c = true) :
    strto b s = ((numVal b s : ℤ), []) := by
  have hd : ∀ c ∈ s, dig c < 16 := fun c hc => by
    have := h c hc
    unfold isDig at this
    simp at this; omega
  have e1 : s.takeWhile (· ≠ '\x00') = s := by
    rw [List.takeWhile_eq_self_iff]
    intro c hc
    have := hd c hc
    simp only [ne_eq, decide_not, Bool.not_eq_true', decide_eq_false_iff_not]
    rintro rfl
    revert this; decide
  obtain ⟨c, r, rfl⟩ := List.exists_cons_of_ne_nil hne
  have hc := hd c (by simp)
  have e2 : (c :: r).dropWhile isSpace = c :: r := by
    rw [List.dropWhile_cons_of_neg]
    intro hs
    have := isSpace_dig hs
    omega
  have e3 : sign (c :: r) = (false, c :: r) := by
    unfold sign
    split
    · rename_i heq
      rw [List.cons.injEq] at heq
      rw [heq.1] at hc
      exact absurd hc (by decide)
    · rename_i heq
      rw [List.cons.injEq] at heq
      rw [heq.1] at hc
      exact absurd hc (by decide)
    · rfl
  have e4 : (if b = 16 then prefix16 (c :: r) else c :: r) = c :: r := by
    split
    · unfold prefix16
      split
      · rename_i c' d r' heq
        have hc' := hd c' (by rw [heq]; simp)
        rw [if_neg, heq]
        rintro ⟨h | h, -⟩
        · subst h; revert hc'; decide
        · subst h; revert hc'; decide
      · rfl
    · rfl
  have e5 : (c :: r).takeWhile (isDig b) = c :: r := List.takeWhile_eq_self_iff.2 h
  have e6 : (c :: r).dropWhile (isDig b) = [] := List.dropWhile_eq_nil_iff.2 h
  unfold strto
  rw [e1]
  dsimp only
  rw [e2, e3]
  dsimp only
  rw [e4, e5, e6]
  rfl

theorem chunks_spec {b w : ℕ} (hb : b ≤ 16) (hw : 0 < w) (hbw : b ^ w ≤ 2 ^ 32) : ∀ (fuel : ℕ) (t : List Char),
    t.length ≤ fuel → (∀ c ∈ t, isDig b c = true) → ∃ xs, chunks b w fuel t = .ok xs ∧
      digitsVal (b ^ w) xs = numVal b t ∧ (∀ x ∈ xs, x < b ^ w) ∧ xs.length = (t.length + w - 1) / w := by
  intro fuel
  induction fuel with
  | zero =>
    intro t hl _
    have : t = [] := List.length_eq_zero_iff.1 (by omega)
    subst this
    refine ⟨[], rfl, rfl, by simp, ?_⟩
    rw [List.length_nil, List.length_nil, Nat.div_eq_of_lt (by omega)]
  | succ fuel ih =>
    intro t hl h
    unfold chunks
    by_cases h0 : t = []
    · subst h0
      refine ⟨[], rfl, rfl, by simp, ?_⟩
      rw [List.length_nil, List.length_nil, Nat.div_eq_of_lt (by omega)]
    · have hpos := List.length_pos_iff.2 h0
      rw [if_neg (by simpa using h0)]
      dsimp only
      obtain ⟨k, hk⟩ : ∃ k, t.length - min t.length w = k := ⟨_, rfl⟩
      rw [hk]
      have hkl : k < t.length := by omega
      have hdl : (t.drop k).length = min t.length w := by rw [List.length_drop]; omega
      have hdd : ∀ c ∈ t.drop k, isDig b c = true := fun c hc => h c (List.mem_of_mem_drop hc)
      rw [strto_digits hb (List.length_pos_iff.1 (by omega)) hdd]
      dsimp only
      rw [if_neg (by simp)]
      obtain ⟨xs, e1, e2, e3, e4⟩ := ih (t.take k) (by rw [List.length_take]; omega) (fun c hc => h c (List.mem_of_mem_take hc))
      have hlt := numVal_lt hdd
      have hlt2 : numVal b (t.drop k) < b ^ w := by
        rcases Nat.eq_zero_or_pos b with rfl | hb0
        · exfalso
          obtain ⟨c, r, hcr⟩ := List.exists_cons_of_ne_nil h0
          have := h c (by rw [hcr]; simp)
          simp [isDig] at this
        · exact lt_of_lt_of_le hlt (Nat.pow_le_pow_right hb0 (by omega))
      have hm : ((numVal b (t.drop k) : ℤ) % 2 ^ 32).toNat = numVal b (t.drop k) := by
        have : (numVal b (t.drop k) : ℤ) < 2 ^ 32 := by exact_mod_cast lt_of_lt_of_le hlt2 hbw
        rw [Int.emod_eq_of_lt (by omega) this]; simp
      rw [e1, Res.bind_ok, hm]
      refine ⟨_, rfl, ?_, ?_, ?_⟩
      · rw [digitsVal, e2]
        rcases Nat.le_total w t.length with hc | hc
        · conv_rhs => rw [← List.take_append_drop k t, numVal_append, hdl, Nat.min_eq_right hc]
          ring
        · have : k = 0 := by omega
          subst this
          simp [numVal]
      · intro x hx
        rw [List.mem_cons] at hx
        rcases hx with rfl | hx
        · exact hlt2
        · exact e3 x hx
      · rw [List.length_cons, e4, List.length_take, Nat.min_eq_left hkl.le]
        rcases Nat.le_total w t.length with hc | hc
        · have : t.length + w - 1 = (k + w - 1) + w := by omega
          rw [this, Nat.add_div_right _ hw]
        · have hk0 : k = 0 := by omega
          rw [hk0, Nat.div_eq_of_lt (by omega), show t.length + w - 1 = (t.length - 1) + w from by omega,
            Nat.add_div_right _ hw, Nat.div_eq_of_lt (by omega)]

theorem wf_len9 {x : List ℕ} (hx : WF x) : x.length ≤ 8 ↔ val x < 2 ^ 512 := by
  have e : (2 : ℕ) ^ 512 = B64 ^ 8 := by decide +kernel
  constructor
  · intro h
    rw [e]
    exact lt_of_lt_of_le hx.val_lt (Nat.pow_le_pow_right (by norm_num) h)
  · intro h
    by_contra hc
    have h1 := hx.val_ge (by omega)
    have h2 : B64 ^ 8 ≤ B64 ^ (x.length - 1) := Nat.pow_le_pow_right (by norm_num) (by omega)
    rw [e] at h
    omega

theorem decLoop_spec : ∀ (vs : List ℕ) (acc : List ℕ), WF acc → (∀ v ∈ vs, v < 1000000000) → vs ≠ [] →
    (vs.foldl (fun a r => a * 1000000000 + r) (val acc) / 1000000000 < 2 ^ 512 →
      ∃ z, decLoop acc vs = .ok z ∧ WF z ∧ val z = vs.foldl (fun a r => a * 1000000000 + r) (val acc)) ∧
    (2 ^ 512 ≤ vs.foldl (fun a r => a * 1000000000 + r) (val acc) / 1000000000 → decLoop acc vs = .exit) := by
  intro vs
  induction vs with
  | nil => intro acc _ _ h; exact absurd rfl h
  | cons v vs ih =>
    intro acc ha hv _
    have hv1 := hv v (by simp)
    rw [List.foldl_cons]
    have hmono : ∀ (l : List ℕ) (a : ℕ), a ≤ l.foldl (fun a r => a * 1000000000 + r) a := by
      intro l
      induction l with
      | nil => intro a; exact le_rfl
      | cons y l ih => intro a; exact le_trans (show a ≤ a * 1000000000 + y by omega) (ih _)
    have hge := hmono vs (val acc * 1000000000 + v)
    unfold decLoop
    obtain ⟨m1, m2⟩ := Vuint.mul_spec ha (show WF (Vuint.ofUnit 1000000000) by decide)
    have hl1 : (Vuint.ofUnit 1000000000).length = 1 := rfl
    rw [hl1] at m1 m2
    by_cases h8 : val acc < 2 ^ 512
    · obtain ⟨z, ez, wz, vz⟩ := m1 (by have := (wf_len9 ha).2 h8; omega)
      have vz' : val z = val acc * 1000000000 := by rw [vz]; rfl
      obtain ⟨a1, -⟩ := Vuint.add32_spec wz (y := v) (by omega)
      obtain ⟨y, ey, wy, vy⟩ := a1 (by rw [vz']; norm_num at h8 ⊢; omega)
      rw [ez, Res.bind_ok, ey, Res.bind_ok]
      rw [vz'] at vy
      cases vs with
      | nil =>
        refine ⟨fun _ => ⟨y, rfl, wy, vy⟩, fun h => ?_⟩
        exfalso
        rw [List.foldl_nil] at h
        omega
      | cons u us =>
        have := ih y wy (fun w hw => hv w (by simp at hw; simp [hw])) (by simp)
        rw [vy] at this
        exact this
    · rw [m2 (by have := mt (wf_len9 ha).1 h8; omega)]
      refine ⟨fun h => ?_, fun _ => rfl⟩
      exfalso
      omega

/-- decimal input -/
theorem set_dec {s : List Char} (hne : s ≠ []) (hd : ∀ c ∈ s, isDig 10 c = true) (h0 : s = ['0'] ∨ s.head? ≠ some '0')
    (hl : s.length < 2 ^ 31) :
    (numVal 10 s / 1000000000 < 2 ^ 512 → ∃ z, set s = .ok z ∧ WF z ∧ val z = numVal 10 s) ∧
    (2 ^ 512 ≤ numVal 10 s / 1000000000 → set s = .exit) := by
  have hp : setPrefix s 0 = .ok (0, []) := by
    unfold setPrefix
    split
    · rcases h0 with h | h
      · simp at h
      · simp at h
    · rfl
  obtain ⟨xs, e1, e2, e3, e4⟩ := chunks_spec (b := 10) (w := 9) (by norm_num) (by norm_num) (by norm_num) s.length s le_rfl hd
  have hxs : xs.reverse ≠ [] := by
    intro h
    have : xs.length = 0 := by
      have := congrArg List.length h
      simpa using this
    have := List.length_pos_iff.2 hne
    omega
  obtain ⟨d1, d2⟩ := decLoop_spec xs.reverse (Vuint.ofUnit 0) (by decide)
    (fun v hv => by have := e3 v (by simpa using hv); norm_num at this; exact this) hxs
  have hf := foldl_rev 1000000000 xs
  have hz : val (Vuint.ofUnit 0) = 0 := rfl
  rw [hz, hf] at d1 d2
  norm_num at e2
  rw [e2] at d1 d2
  have hset : set s = decLoop (Vuint.ofUnit 0) xs.reverse := by
    unfold set
    rw [hp, Res.bind_ok]
    dsimp only
    rw [if_pos rfl, if_pos (show ([] : List Char).isEmpty = true from rfl), if_neg (by omega), if_neg (by omega), e1, Res.bind_ok]
  rw [hset]
  exact ⟨d1, d2⟩

/-- hexadecimal input -/
theorem set_hex {r : List Char} (hne : r ≠ []) (hd : ∀ c ∈ r, isDig 16 c = true) (hl : r.length < 2 ^ 31) :
    (r.length ≤ 144 → ∃ z, set ('0' :: 'x' :: r) = .ok z ∧ WF z ∧ val z = numVal 16 r) ∧
    (144 < r.length → set ('0' :: 'x' :: r) = .exit) := by
  obtain ⟨xs, e1, e2, e3, e4⟩ := chunks_spec (b := 16) (w := 8) (by norm_num) (by norm_num) (by norm_num) r.length r le_rfl hd
  have hpos := List.length_pos_iff.2 hne
  have hset : set ('0' :: 'x' :: r) = Vuint.setUnits32 xs := by
    unfold set
    have hp : setPrefix ('0' :: 'x' :: r) 0 = .ok (16, r) := by
      unfold setPrefix
      simp
    rw [hp, Res.bind_ok]
    dsimp only
    have hre : r.isEmpty = false := by simpa using hne
    have hxe : xs.isEmpty = false := by
      cases xs with
      | nil => simp at e4; omega
      | cons => rfl
    rw [if_neg (show ¬ (16 = 0) by norm_num), hre, if_neg Bool.false_ne_true, if_neg (by omega), if_pos rfl, e1, Res.bind_ok, hxe,
      if_neg Bool.false_ne_true]
  rw [hset]
  norm_num at e2 e3
  obtain ⟨s1, s2⟩ := setUnits32_spec xs (by norm_num; exact e3)
  norm_num at s1
  rw [e2] at s1
  exact ⟨fun h => s1 (by omega), fun h => s2 (by omega)⟩

end Verif.Text
