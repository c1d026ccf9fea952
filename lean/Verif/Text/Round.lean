import Verif.Text.Lemmas

/-! Round trips, rejected texts and streams. -/

namespace Verif.Text

open Verif

/-! ### round trips -/

theorem set_toDec {n : ℕ} (h : n / 1000000000 < 2 ^ 512) : ∃ z, set (Nat.toDigits 10 n) = .ok z ∧ WF z ∧ val z = n := by
  obtain ⟨h1, h2⟩ := toDigits_props (b := 10) (by norm_num) (by norm_num) n
  have hl : (Nat.toDigits 10 n).length ≤ 1000 := by
    refine Nat.toDigits_length 10 n 1000 (by norm_num) ?_
    have e : (2 : ℕ) ^ 512 < 10 ^ 200 := by decide +kernel
    have e2 : (10 : ℕ) ^ 200 * 10 ^ 9 ≤ 10 ^ 1000 := by rw [← pow_add]; exact Nat.pow_le_pow_right (by norm_num) (by norm_num)
    generalize (2 : ℕ) ^ 512 = A at *
    generalize (10 : ℕ) ^ 200 = B at *
    generalize (10 : ℕ) ^ 1000 = C at *
    norm_num at e2
    omega
  have h0 : Nat.toDigits 10 n = ['0'] ∨ (Nat.toDigits 10 n).head? ≠ some '0' := by
    rcases Nat.eq_zero_or_pos n with rfl | hn
    · left; exact Nat.toDigits_zero 10
    · right
      obtain ⟨c, r, e, hc⟩ := toDigits_head (b := 10) (by norm_num) (by norm_num) n hn
      rw [e]; simpa using hc
  obtain ⟨s1, -⟩ := set_dec Nat.toDigits_ne_nil h2 h0 (by omega)
  rw [h1] at s1
  exact s1 h

theorem set_toDec_exit {n : ℕ} (h : 2 ^ 512 ≤ n / 1000000000) (hn : n < 2 ^ 576) : set (Nat.toDigits 10 n) = .exit := by
  obtain ⟨h1, h2⟩ := toDigits_props (b := 10) (by norm_num) (by norm_num) n
  have hl : (Nat.toDigits 10 n).length ≤ 200 := by
    refine Nat.toDigits_length 10 n 200 (by norm_num) (lt_of_lt_of_le hn (by decide +kernel))
  have h0 : Nat.toDigits 10 n = ['0'] ∨ (Nat.toDigits 10 n).head? ≠ some '0' := by
    right
    obtain ⟨c, r, e, hc⟩ := toDigits_head (b := 10) (by norm_num) (by norm_num) n (by
      rcases Nat.eq_zero_or_pos n with rfl | hn
      · norm_num at h
      · exact hn)
    rw [e]; simpa using hc
  obtain ⟨-, s1⟩ := set_dec Nat.toDigits_ne_nil h2 h0 (by omega)
  rw [h1] at s1
  exact s1 h

theorem set_toHex {n : ℕ} (h : n < 2 ^ 576) : ∃ z, set ('0' :: 'x' :: Nat.toDigits 16 n) = .ok z ∧ WF z ∧ val z = n := by
  obtain ⟨h1, h2⟩ := toDigits_props (b := 16) (by norm_num) (by norm_num) n
  have hl : (Nat.toDigits 16 n).length ≤ 144 := by
    refine Nat.toDigits_length 16 n 144 (by norm_num) ?_
    rwa [show (16 : ℕ) = 2 ^ 4 from by norm_num, ← pow_mul]
  obtain ⟨s1, -⟩ := set_hex Nat.toDigits_ne_nil h2 (by omega)
  rw [h1] at s1
  exact s1 hl

theorem wf_lt {x : List ℕ} (hx : WF x) : val x < 2 ^ 576 := by
  have e : (2 : ℕ) ^ 576 = B64 ^ 9 := by decide +kernel
  rw [e]
  exact lt_of_lt_of_le hx.val_lt (Nat.pow_le_pow_right (by norm_num) hx.len)

/-! ### rejected texts -/

/-- characters that can occur in an accepted text -/
def lenient (b : ℕ) (c : Char) : Bool :=
  isDig b c || isSpace c || c == '-' || c == '+' || (b == 16 && (c == 'x' || c == 'X'))

theorem strto_reject {b : ℕ} {s : List Char} (h0 : '\x00' ∉ s) (hr : (strto b s).2 = []) : ∀ c ∈ s, lenient b c = true := by
  have e1 : s.takeWhile (· ≠ '\x00') = s := by
    rw [List.takeWhile_eq_self_iff]
    intro c hc
    simp only [ne_eq, decide_not, Bool.not_eq_true', decide_eq_false_iff_not]
    rintro rfl
    exact h0 hc
  unfold strto at hr
  rw [e1] at hr
  dsimp only at hr
  by_cases hemp : ((if b = 16 then prefix16 (sign (s.dropWhile isSpace)).2 else (sign (s.dropWhile isSpace)).2).takeWhile
      (isDig b)).isEmpty = true
  · rw [if_pos hemp] at hr
    intro c hc
    dsimp only at hr
    rw [hr] at hc
    simp at hc
  · rw [if_neg hemp] at hr
    have h3 := List.dropWhile_eq_nil_iff.1 hr
    clear hemp hr
    have hsg : ∀ c ∈ (sign (s.dropWhile isSpace)).2, lenient b c = true := by
      intro c hc
      by_cases hb : b = 16
      · rw [if_pos hb] at h3
        generalize (sign (s.dropWhile isSpace)).2 = t at *
        unfold prefix16 at h3
        split at h3
        · rename_i c' d r
          split at h3
          · rename_i hx
            rw [List.mem_cons, List.mem_cons] at hc
            rcases hc with hc | hc | hc
            · subst hc; subst hb; decide
            · subst hc
              unfold lenient
              rcases hx.1 with h | h <;> simp [h, hb]
            · have := h3 c hc
              simp [lenient, this]
          · have := h3 c hc
            simp [lenient, this]
        · have := h3 c hc
          simp [lenient, this]
      · rw [if_neg hb] at h3
        have := h3 c hc
        simp [lenient, this]
    have hdw : ∀ c ∈ s.dropWhile isSpace, lenient b c = true := by
      intro c hc
      generalize s.dropWhile isSpace = t at *
      unfold sign at hsg
      split at hsg
      · rw [List.mem_cons] at hc
        rcases hc with hc | hc
        · subst hc; simp [lenient]
        · exact hsg c hc
      · rw [List.mem_cons] at hc
        rcases hc with hc | hc
        · subst hc; simp [lenient]
        · exact hsg c hc
      · exact hsg c hc
    intro c hc
    rw [← List.takeWhile_append_dropWhile (p := isSpace) (l := s), List.mem_append] at hc
    rcases hc with hc | hc
    · have : isSpace c = true := List.mem_takeWhile_imp hc
      simp [lenient, this]
    · exact hdw c hc

theorem chunks_reject {b w : ℕ} (hw : 0 < w) : ∀ (fuel : ℕ) (t : List Char), t.length ≤ fuel → '\x00' ∉ t →
    (∃ c ∈ t, lenient b c = false) → chunks b w fuel t = .throw := by
  intro fuel
  induction fuel with
  | zero =>
    intro t hl _ ⟨c, hc, _⟩
    have : t = [] := List.length_eq_zero_iff.1 (by omega)
    subst this
    simp at hc
  | succ fuel ih =>
    intro t hl h0 ⟨c, hc, hcl⟩
    have hne : t ≠ [] := by rintro rfl; simp at hc
    have hpos := List.length_pos_iff.2 hne
    unfold chunks
    rw [if_neg (by simpa using hne)]
    dsimp only
    obtain ⟨k, hk⟩ : ∃ k, t.length - min t.length w = k := ⟨_, rfl⟩
    rw [hk]
    by_cases hr : (strto b (t.drop k)).2 = []
    · rw [if_neg (by simpa using hr)]
      have hd := strto_reject (fun h => h0 (List.mem_of_mem_drop h)) hr
      rw [← List.take_append_drop k t, List.mem_append] at hc
      rcases hc with hc | hc
      · rw [ih (t.take k) (by rw [List.length_take]; omega) (fun h => h0 (List.mem_of_mem_take h)) ⟨c, hc, hcl⟩]; rfl
      · rw [hd c hc] at hcl; simp at hcl
    · rw [if_pos hr]

/-! ### streams -/

theorem isDig_range {c : Char} : isDig 16 c = true ↔
    (('0' ≤ c ∧ c ≤ '9') ∨ ('a' ≤ c ∧ c ≤ 'f') ∨ ('A' ≤ c ∧ c ≤ 'F')) := by
  have e : ∀ d : Char, d ≤ c ↔ d.toNat ≤ c.toNat := fun d => by rw [Char.le_def, UInt32.le_iff_toNat_le]; rfl
  have e' : ∀ d : Char, c ≤ d ↔ c.toNat ≤ d.toNat := fun d => by rw [Char.le_def, UInt32.le_iff_toNat_le]; rfl
  rw [e, e, e, e', e', e']
  have v : '0'.toNat = 48 ∧ '9'.toNat = 57 ∧ 'a'.toNat = 97 ∧ 'f'.toNat = 102 ∧ 'A'.toNat = 65 ∧ 'F'.toNat = 70 := by decide
  rw [v.1, v.2.1, v.2.2.1, v.2.2.2.1, v.2.2.2.2.1, v.2.2.2.2.2]
  unfold isDig dig
  rw [decide_eq_true_eq]
  split_ifs <;> omega

theorem digitOk_iff (str : List Char) (c : Char) :
    digitOk false str c = true ↔ (isDig 16 c = true ∨ (str = ['0'] ∧ c = 'x')) := by
  rw [isDig_range]
  unfold digitOk
  simp only [Bool.or_eq_true, Bool.and_eq_true, decide_eq_true_eq, beq_iff_eq, Bool.false_eq_true, false_and, or_false]
  tauto

/-- what follows a number in a stream: nothing, or a character that does not continue it -/
def Stops (rest : List Char) : Prop := ∀ c r, rest = c :: r → isDig 16 c = false ∧ c ≠ 'x'

theorem digitLoop_spec {rest : List Char} (hr : Stops rest) : ∀ (ds acc : List Char), (∀ c ∈ ds, isDig 16 c = true) →
    digitLoop false (ds ++ rest) acc = (acc ++ ds, ⟨rest, rest.isEmpty⟩) := by
  intro ds
  induction ds with
  | nil =>
    intro acc _
    rw [List.nil_append, List.append_nil]
    cases rest with
    | nil => rfl
    | cons c r =>
      obtain ⟨h1, h2⟩ := hr c r rfl
      unfold digitLoop
      rw [if_neg]
      · rfl
      · rw [digitOk_iff]
        rintro (h | ⟨-, h⟩)
        · rw [h1] at h; simp at h
        · exact h2 h
  | cons d ds ih =>
    intro acc h
    rw [List.cons_append]
    unfold digitLoop
    rw [if_pos ((digitOk_iff _ _).2 (.inl (h d (by simp)))), ih _ (fun c hc => h c (by simp [hc]))]
    simp

theorem isDig_not_space {c : Char} (h : isDig 16 c = true) : isSpace c = false := by
  by_contra hc
  have := isSpace_dig (Bool.eq_true_of_not_eq_false hc)
  unfold isDig at h
  rw [this] at h
  simp at h

theorem dropWhile_spaces {ws : List Char} (hw : ∀ c ∈ ws, isSpace c = true) (l : List Char) :
    (ws ++ l).dropWhile isSpace = l.dropWhile isSpace := by
  induction ws with
  | nil => rfl
  | cons c ws ih =>
    rw [List.cons_append, List.dropWhile_cons_of_pos (hw c (by simp))]
    exact ih (fun d hd => hw d (by simp [hd]))

theorem getDigits_dec {ws ds rest : List Char} (hw : ∀ c ∈ ws, isSpace c = true) (hne : ds ≠ [])
    (hd : ∀ c ∈ ds, isDig 16 c = true) (hr : Stops rest) :
    getDigits ⟨ws ++ (ds ++ rest), false⟩ = (ds, ⟨rest, rest.isEmpty⟩) := by
  unfold getDigits
  dsimp only
  rw [if_neg Bool.false_ne_true, dropWhile_spaces hw]
  obtain ⟨c, r, rfl⟩ := List.exists_cons_of_ne_nil hne
  rw [List.cons_append, List.dropWhile_cons_of_neg (by rw [isDig_not_space (hd c (by simp))]; simp), ← List.cons_append,
    digitLoop_spec hr _ _ hd]
  rfl

theorem getDigits_hex {ws ds rest : List Char} (hw : ∀ c ∈ ws, isSpace c = true)
    (hd : ∀ c ∈ ds, isDig 16 c = true) (hr : Stops rest) :
    getDigits ⟨ws ++ ('0' :: 'x' :: ds ++ rest), false⟩ = ('0' :: 'x' :: ds, ⟨rest, rest.isEmpty⟩) := by
  unfold getDigits
  dsimp only
  rw [if_neg Bool.false_ne_true, dropWhile_spaces hw, List.cons_append, List.cons_append,
    List.dropWhile_cons_of_neg (by decide)]
  unfold digitLoop
  rw [if_pos (by decide)]
  unfold digitLoop
  rw [if_pos (by decide), digitLoop_spec hr _ _ hd]
  rfl

theorem isDig_mono {c : Char} (h : isDig 10 c = true) : isDig 16 c = true := by
  unfold isDig at *
  simp at *
  omega

end Verif.Text
