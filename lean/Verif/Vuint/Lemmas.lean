import Verif.Vuint.Spec

namespace Verif

theorem addNLoop_spec (x y : List ℕ) (c : ℕ) (hl : x.length = y.length) (hx : Words x)
    (hy : Words y) (hc : c ≤ 1) :
    (addNLoop x y c).1.length = x.length ∧ Words (addNLoop x y c).1 ∧ (addNLoop x y c).2 ≤ 1 ∧
    val (addNLoop x y c).1 + B64 ^ x.length * (addNLoop x y c).2 = val x + val y + c := by
  induction x generalizing y c with
  | nil => cases y with
    | nil => simp [addNLoop, hc]
    | cons _ _ => simp at hl
  | cons a as ih =>
    cases y with
    | nil => simp at hl
    | cons b bs =>
      rw [words_cons] at hx hy
      have hl' : as.length = bs.length := by simpa using hl
      obtain ⟨ha, has⟩ := hx
      obtain ⟨hb, hbs⟩ := hy
      unfold addNLoop
      have key : ∀ c', c' ≤ 1 → ∀ o, o < B64 → o + B64 * c' = a + b + c →
          (o :: (addNLoop as bs c').1).length = (a :: as).length ∧
          Words (o :: (addNLoop as bs c').1) ∧ (addNLoop as bs c').2 ≤ 1 ∧
          val (o :: (addNLoop as bs c').1) + B64 ^ (a :: as).length * (addNLoop as bs c').2
            = val (a :: as) + val (b :: bs) + c := by
        intro c' hc' o ho hoc
        obtain ⟨h1, h2, h3, h4⟩ := ih bs c' hl' has hbs hc'
        refine ⟨by simp [h1], by simp [ho, h2], h3, ?_⟩
        simp only [val_cons, List.length_cons, pow_succ]
        have : B64 * (val (addNLoop as bs c').1 + B64 ^ as.length * (addNLoop as bs c').2)
            = B64 * (val as + val bs + c') := by rw [h4]
        nlinarith
      simp only
      split
      · rename_i h
        have h1 : c = 1 ∧ a = B64 - 1 := by
          rcases Nat.lt_or_ge (a + c) B64 with h' | h'
          · rw [Nat.mod_eq_of_lt h'] at h; omega
          · omega
        obtain ⟨rfl, rfl⟩ := h1
        exact key 1 le_rfl b hb (by omega)
      · rename_i h
        have hac : a + c < B64 := by
          by_contra h'
          have : a + c = B64 := by omega
          rw [this, Nat.mod_self] at h
          omega
        rw [Nat.mod_eq_of_lt hac]
        rcases Nat.lt_or_ge (a + c + b) B64 with h' | h'
        · rw [Nat.mod_eq_of_lt h']
          have : ¬ (b > a + c + b) := by omega
          rw [if_neg this]
          exact key 0 (by omega) _ h' (by omega)
        · have e : (a + c + b) % B64 = a + c + b - B64 := by
            rw [Nat.mod_eq_sub_mod h', Nat.mod_eq_of_lt (by omega)]
          rw [e]
          have : b > a + c + b - B64 := by omega
          rw [if_pos this]
          exact key 1 le_rfl _ (by omega) (by omega)

theorem addN_spec (x y : List ℕ) (hl : x.length = y.length) (hx : Words x) (hy : Words y) :
    (addN x y).1.length = x.length ∧ Words (addN x y).1 ∧ (addN x y).2 ≤ 1 ∧
    val (addN x y).1 + B64 ^ x.length * (addN x y).2 = val x + val y := by
  have := addNLoop_spec x y 0 hl hx hy (by omega)
  simpa [addN] using this

theorem add1Loop_spec (x : List ℕ) (c : ℕ) (hx : Words x) (hc : c ≤ 1) :
    (add1Loop x c).1.length = x.length ∧ Words (add1Loop x c).1 ∧ (add1Loop x c).2 ≤ 1 ∧
    val (add1Loop x c).1 + B64 ^ x.length * (add1Loop x c).2 = val x + c := by
  induction x generalizing c with
  | nil => simp [add1Loop, hc]
  | cons a as ih =>
    rw [words_cons] at hx
    obtain ⟨ha, has⟩ := hx
    unfold add1Loop
    simp only
    have key : ∀ c', c' ≤ 1 → ∀ o, o < B64 → o + B64 * c' = a + c →
        (o :: (add1Loop as c').1).length = (a :: as).length ∧
        Words (o :: (add1Loop as c').1) ∧ (add1Loop as c').2 ≤ 1 ∧
        val (o :: (add1Loop as c').1) + B64 ^ (a :: as).length * (add1Loop as c').2
          = val (a :: as) + c := by
      intro c' hc' o ho hoc
      obtain ⟨h1, h2, h3, h4⟩ := ih c' has hc'
      refine ⟨by simp [h1], by simp [ho, h2], h3, ?_⟩
      simp only [val_cons, List.length_cons, pow_succ]
      have : B64 * (val (add1Loop as c').1 + B64 ^ as.length * (add1Loop as c').2)
          = B64 * (val as + c') := by rw [h4]
      nlinarith
    split
    · rename_i h
      have h1 : c = 1 ∧ a = B64 - 1 := by
        rcases Nat.lt_or_ge (a + c) B64 with h' | h'
        · rw [Nat.mod_eq_of_lt h'] at h; omega
        · omega
      obtain ⟨rfl, rfl⟩ := h1
      exact key 1 le_rfl 0 B64_pos (by omega)
    · rename_i h
      have hac : a + c < B64 := by
        by_contra h'
        have : a + c = B64 := by omega
        rw [this, Nat.mod_self] at h
        omega
      rw [Nat.mod_eq_of_lt hac]
      exact key 0 (by omega) _ hac (by omega)

theorem add1_spec (x : List ℕ) (y : ℕ) (hn : 0 < x.length) (hx : Words x) (hy : y < B64) :
    (add1 x y).1.length = x.length ∧ Words (add1 x y).1 ∧ (add1 x y).2 ≤ 1 ∧
    val (add1 x y).1 + B64 ^ x.length * (add1 x y).2 = val x + y := by
  cases x with
  | nil => simp at hn
  | cons a as =>
    rw [words_cons] at hx
    obtain ⟨ha, has⟩ := hx
    unfold add1
    simp only
    have key : ∀ c', c' ≤ 1 → ∀ o, o < B64 → o + B64 * c' = a + y →
        (o :: (add1Loop as c').1).length = (a :: as).length ∧
        Words (o :: (add1Loop as c').1) ∧ (add1Loop as c').2 ≤ 1 ∧
        val (o :: (add1Loop as c').1) + B64 ^ (a :: as).length * (add1Loop as c').2
          = val (a :: as) + y := by
      intro c' hc' o ho hoc
      obtain ⟨h1, h2, h3, h4⟩ := add1Loop_spec as c' has hc'
      refine ⟨by simp [h1], by simp [ho, h2], h3, ?_⟩
      simp only [val_cons, List.length_cons, pow_succ]
      have : B64 * (val (add1Loop as c').1 + B64 ^ as.length * (add1Loop as c').2)
          = B64 * (val as + c') := by rw [h4]
      nlinarith
    rcases Nat.lt_or_ge (a + y) B64 with h' | h'
    · rw [Nat.mod_eq_of_lt h', if_neg (by omega)]
      exact key 0 (by omega) _ h' (by omega)
    · have e : (a + y) % B64 = a + y - B64 := by
        rw [Nat.mod_eq_sub_mod h', Nat.mod_eq_of_lt (by omega)]
      rw [e, if_pos (by omega)]
      exact key 1 le_rfl _ (by omega) (by omega)

theorem subNLoop_spec (x y : List ℕ) (c : ℕ) (hl : x.length = y.length) (hx : Words x)
    (hy : Words y) (hc : c ≤ 1) :
    (subNLoop x y c).1.length = x.length ∧ Words (subNLoop x y c).1 ∧ (subNLoop x y c).2 ≤ 1 ∧
    val (subNLoop x y c).1 + val y + c = val x + B64 ^ x.length * (subNLoop x y c).2 := by
  induction x generalizing y c with
  | nil => cases y with
    | nil => simp [subNLoop, hc]
    | cons _ _ => simp at hl
  | cons a as ih =>
    cases y with
    | nil => simp at hl
    | cons b bs =>
      rw [words_cons] at hx hy
      have hl' : as.length = bs.length := by simpa using hl
      obtain ⟨ha, has⟩ := hx
      obtain ⟨hb, hbs⟩ := hy
      unfold subNLoop
      have key : ∀ c', c' ≤ 1 → ∀ o, o < B64 → o + b + c = a + B64 * c' →
          (o :: (subNLoop as bs c').1).length = (a :: as).length ∧
          Words (o :: (subNLoop as bs c').1) ∧ (subNLoop as bs c').2 ≤ 1 ∧
          val (o :: (subNLoop as bs c').1) + val (b :: bs) + c
            = val (a :: as) + B64 ^ (a :: as).length * (subNLoop as bs c').2 := by
        intro c' hc' o ho hoc
        obtain ⟨h1, h2, h3, h4⟩ := ih bs c' hl' has hbs hc'
        refine ⟨by simp [h1], by simp [ho, h2], h3, ?_⟩
        simp only [val_cons, List.length_cons, pow_succ]
        have : B64 * (val (subNLoop as bs c').1 + val bs + c')
            = B64 * (val as + B64 ^ as.length * (subNLoop as bs c').2) := by rw [h4]
        nlinarith
      simp only
      split
      · rename_i h
        have h1 : c = 1 ∧ b = B64 - 1 := by
          rcases Nat.lt_or_ge (b + c) B64 with h' | h'
          · rw [Nat.mod_eq_of_lt h'] at h; omega
          · omega
        obtain ⟨rfl, rfl⟩ := h1
        exact key 1 le_rfl a ha (by omega)
      · rename_i h
        have hac : b + c < B64 := by
          by_contra h'
          have : b + c = B64 := by omega
          rw [this, Nat.mod_self] at h
          omega
        rw [Nat.mod_eq_of_lt hac]
        rcases Nat.lt_or_ge a (b + c) with h' | h'
        · rw [if_pos h', Nat.mod_eq_of_lt (by omega)]
          exact key 1 le_rfl _ (by omega) (by omega)
        · have e : (a + B64 - (b + c)) % B64 = a - (b + c) := by
            rw [Nat.mod_eq_sub_mod (by omega), Nat.mod_eq_of_lt (by omega)]; omega
          rw [e, if_neg (by omega)]
          exact key 0 (by omega) _ (by omega) (by omega)

theorem subN_spec (x y : List ℕ) (hl : x.length = y.length) (hx : Words x) (hy : Words y) :
    (subN x y).1.length = x.length ∧ Words (subN x y).1 ∧ (subN x y).2 ≤ 1 ∧
    val (subN x y).1 + val y = val x + B64 ^ x.length * (subN x y).2 := by
  have := subNLoop_spec x y 0 hl hx hy (by omega)
  simpa [subN] using this

theorem sub1Loop_spec (x : List ℕ) (c : ℕ) (hx : Words x) (hc : c ≤ 1) :
    (sub1Loop x c).1.length = x.length ∧ Words (sub1Loop x c).1 ∧ (sub1Loop x c).2 ≤ 1 ∧
    val (sub1Loop x c).1 + c = val x + B64 ^ x.length * (sub1Loop x c).2 := by
  induction x generalizing c with
  | nil => simp [sub1Loop, hc]
  | cons a as ih =>
    rw [words_cons] at hx
    obtain ⟨ha, has⟩ := hx
    unfold sub1Loop
    simp only
    have key : ∀ c', c' ≤ 1 → ∀ o, o < B64 → o + c = a + B64 * c' →
        (o :: (sub1Loop as c').1).length = (a :: as).length ∧
        Words (o :: (sub1Loop as c').1) ∧ (sub1Loop as c').2 ≤ 1 ∧
        val (o :: (sub1Loop as c').1) + c
          = val (a :: as) + B64 ^ (a :: as).length * (sub1Loop as c').2 := by
      intro c' hc' o ho hoc
      obtain ⟨h1, h2, h3, h4⟩ := ih c' has hc'
      refine ⟨by simp [h1], by simp [ho, h2], h3, ?_⟩
      simp only [val_cons, List.length_cons, pow_succ]
      have : B64 * (val (sub1Loop as c').1 + c')
          = B64 * (val as + B64 ^ as.length * (sub1Loop as c').2) := by rw [h4]
      nlinarith
    split
    · rename_i h
      have h1 : c = 1 ∧ a = 0 := by omega
      obtain ⟨rfl, rfl⟩ := h1
      exact key 1 le_rfl _ (by omega) (by omega)
    · rename_i h
      have e : (a + B64 - c) % B64 = a - c := by
        rw [Nat.mod_eq_sub_mod (by omega), Nat.mod_eq_of_lt (by omega)]; omega
      rw [e]
      exact key 0 (by omega) _ (by omega) (by omega)

theorem sub1_spec (x : List ℕ) (y : ℕ) (hn : 0 < x.length) (hx : Words x) (hy : y < B64) :
    (sub1 x y).1.length = x.length ∧ Words (sub1 x y).1 ∧ (sub1 x y).2 ≤ 1 ∧
    val (sub1 x y).1 + y = val x + B64 ^ x.length * (sub1 x y).2 := by
  cases x with
  | nil => simp at hn
  | cons a as =>
    rw [words_cons] at hx
    obtain ⟨ha, has⟩ := hx
    unfold sub1
    simp only
    have key : ∀ c', c' ≤ 1 → ∀ o, o < B64 → o + y = a + B64 * c' →
        (o :: (sub1Loop as c').1).length = (a :: as).length ∧
        Words (o :: (sub1Loop as c').1) ∧ (sub1Loop as c').2 ≤ 1 ∧
        val (o :: (sub1Loop as c').1) + y
          = val (a :: as) + B64 ^ (a :: as).length * (sub1Loop as c').2 := by
      intro c' hc' o ho hoc
      obtain ⟨h1, h2, h3, h4⟩ := sub1Loop_spec as c' has hc'
      refine ⟨by simp [h1], by simp [ho, h2], h3, ?_⟩
      simp only [val_cons, List.length_cons, pow_succ]
      have : B64 * (val (sub1Loop as c').1 + c')
          = B64 * (val as + B64 ^ as.length * (sub1Loop as c').2) := by rw [h4]
      nlinarith
    rcases Nat.lt_or_ge a y with h' | h'
    · rw [if_pos h', Nat.mod_eq_of_lt (by omega)]
      exact key 1 le_rfl _ (by omega) (by omega)
    · have e : (a + B64 - y) % B64 = a - y := by
        rw [Nat.mod_eq_sub_mod (by omega), Nat.mod_eq_of_lt (by omega)]; omega
      rw [e, if_neg (by omega)]
      exact key 0 (by omega) _ (by omega) (by omega)

theorem mul1Loop_spec (x : List ℕ) (y H : ℕ) (hx : Words x) (hy : y < B64) (hH : H < B64) :
    (mul1Loop x y H).length = x.length + 1 ∧ Words (mul1Loop x y H) ∧
    val (mul1Loop x y H) = val x * y + H := by
  induction x generalizing H with
  | nil => simp [mul1Loop, hH]
  | cons a as ih =>
    rw [words_cons] at hx
    obtain ⟨ha, has⟩ := hx
    unfold mul1Loop
    simp only
    have hprod : a * y ≤ 18446744073709551615 * 18446744073709551615 :=
      Nat.mul_le_mul (by omega) (by omega)
    have hdm := Nat.div_add_mod (a * y) B64
    have hl : a * y % B64 < B64 := Nat.mod_lt _ B64_pos
    generalize a * y % B64 = l at *
    generalize a * y / B64 = q at *
    have hq : q ≤ 18446744073709551614 := by omega
    have key : ∀ H', H' < B64 → ∀ o, o < B64 → o + B64 * H' = a * y + H →
        (o :: mul1Loop as y H').length = (a :: as).length + 1 ∧ Words (o :: mul1Loop as y H') ∧
        val (o :: mul1Loop as y H') = val (a :: as) * y + H := by
      intro H' hH' o ho hoc
      obtain ⟨h1, h2, h3⟩ := ih H' has hH'
      refine ⟨by simp [h1], by simp [ho, h2], ?_⟩
      simp only [val_cons, h3]
      nlinarith
    rcases Nat.lt_or_ge (H + l) B64 with h' | h'
    · rw [Nat.mod_eq_of_lt h', if_neg (by omega)]
      exact key q (by omega) _ h' (by omega)
    · have e : (H + l) % B64 = H + l - B64 := by
        rw [Nat.mod_eq_sub_mod h', Nat.mod_eq_of_lt (by omega)]
      rw [e, if_pos (by omega), Nat.mod_eq_of_lt (by omega)]
      exact key (q + 1) (by omega) _ (by omega) (by omega)

theorem mul1_spec (x : List ℕ) (y : ℕ) (hx : Words x) (hy : y < B64) :
    (mul1 x y).length = x.length + 1 ∧ Words (mul1 x y) ∧ val (mul1 x y) = val x * y := by
  simpa [mul1] using mul1Loop_spec x y 0 hx hy B64_pos

theorem div1_spec (x : List ℕ) (y : ℕ) (hx : Words x) (hy : 0 < y) :
    (div1 x y).1.length = x.length ∧ Words (div1 x y).1 ∧ (div1 x y).2 < y ∧
    val x = val (div1 x y).1 * y + (div1 x y).2 := by
  induction x with
  | nil => simp [div1, hy]
  | cons a as ih =>
    rw [words_cons] at hx
    obtain ⟨ha, has⟩ := hx
    obtain ⟨h1, h2, h3, h4⟩ := ih has
    unfold div1
    simp only
    set r := (div1 as y).2
    have hlt : (r * B64 + a) / y < B64 := by
      rw [Nat.div_lt_iff_lt_mul hy]
      have : (r + 1) * B64 ≤ y * B64 := Nat.mul_le_mul_right _ h3
      have e : (r + 1) * B64 = r * B64 + B64 := by ring
      have e2 : y * B64 = B64 * y := by ring
      omega
    rw [Nat.mod_eq_of_lt hlt]
    refine ⟨by simp [h1], by simp [hlt, h2], Nat.mod_lt _ hy, ?_⟩
    have hdm := Nat.div_add_mod (r * B64 + a) y
    simp only [val_cons]
    rw [h4]
    nlinarith

theorem mod1_eq (x : List ℕ) (y : ℕ) : mod1 x y = (div1 x y).2 := by
  induction x with
  | nil => rfl
  | cons a as ih => simp [mod1, div1, ih]

theorem cmpEq_spec (x y : List ℕ) (hl : x.length = y.length) (hx : Words x) (hy : Words y) :
    (cmpEq x y = 0 ∧ val x = val y) ∨ (cmpEq x y = 1 ∧ val x > val y) ∨
    (cmpEq x y = -1 ∧ val x < val y) := by
  induction x generalizing y with
  | nil => cases y with
    | nil => simp [cmpEq]
    | cons _ _ => simp at hl
  | cons a as ih =>
    cases y with
    | nil => simp at hl
    | cons b bs =>
      rw [words_cons] at hx hy
      have hl' : as.length = bs.length := by simpa using hl
      obtain ⟨ha, has⟩ := hx
      obtain ⟨hb, hbs⟩ := hy
      unfold cmpEq
      simp only [val_cons]
      rcases ih bs hl' has hbs with ⟨h1, h2⟩ | ⟨h1, h2⟩ | ⟨h1, h2⟩
      · rw [h1, h2]
        simp only [ne_eq, not_true_eq_false, if_false]
        split
        · rename_i h
          split
          · right; left; exact ⟨rfl, by omega⟩
          · right; right; exact ⟨rfl, by omega⟩
        · rename_i h
          left; refine ⟨rfl, by omega⟩
      · rw [h1]
        right; left
        refine ⟨by simp, ?_⟩
        have : B64 * (val bs + 1) ≤ B64 * val as := Nat.mul_le_mul_left _ h2
        rw [Nat.mul_add] at this; omega
      · rw [h1]
        right; right
        refine ⟨by simp, ?_⟩
        have : B64 * (val as + 1) ≤ B64 * val bs := Nat.mul_le_mul_left _ h2
        rw [Nat.mul_add] at this; omega

theorem WF.isWords {x : List ℕ} (h : WF x) : Words x := h.words

theorem WF.val_lt {x : List ℕ} (h : WF x) : val x < B64 ^ x.length := Verif.val_lt h.isWords

theorem val_ge_of_last {x : List ℕ} (hn : 0 < x.length) (h : x.getLast? ≠ some 0) :
    B64 ^ (x.length - 1) ≤ val x := by
  obtain ⟨a, b, rfl⟩ : ∃ a b, x = a ++ [b] := by
    have hne : x ≠ [] := List.ne_nil_of_length_pos hn
    exact ⟨x.dropLast, x.getLast hne, (List.dropLast_append_getLast hne).symm⟩
  rw [val_append]
  simp at h
  simp only [List.length_append, List.length_cons, List.length_nil, Nat.add_sub_cancel, val_cons,
    val_nil, Nat.mul_zero, Nat.add_zero, zero_add]
  have : 1 ≤ b := by omega
  calc B64 ^ a.length = B64 ^ a.length * 1 := by ring
    _ ≤ B64 ^ a.length * b := Nat.mul_le_mul_left _ this
    _ ≤ _ := Nat.le_add_left _ _

theorem WF.val_ge {x : List ℕ} (h : WF x) (hl : x.length ≠ 1) : B64 ^ (x.length - 1) ≤ val x :=
  val_ge_of_last h.pos (h.top.resolve_left hl)

/-- more words means a larger value, for well-formed vectors -/
theorem WF.val_lt_of_length {x y : List ℕ} (hx : WF x) (hy : WF y) (h : x.length < y.length) :
    val x < val y := by
  have h1 := hx.val_lt
  have h2 := hy.val_ge (by have := hx.pos; omega)
  have h3 : B64 ^ x.length ≤ B64 ^ (y.length - 1) := Nat.pow_le_pow_right B64_pos (by omega)
  omega

theorem WF.length_le {x y : List ℕ} (hx : WF x) (hy : WF y) (h : val x ≤ val y) :
    x.length ≤ y.length := by
  by_contra hc
  have := hy.val_lt_of_length hx (by omega)
  omega

theorem WF.ext {x y : List ℕ} (hx : WF x) (hy : WF y) (h : val x = val y) : x = y := by
  have h1 := hx.length_le hy h.le
  have h2 := hy.length_le hx h.ge
  exact val_inj hx.isWords hy.isWords (by omega) h

theorem cmp_spec {x y : List ℕ} (hx : WF x) (hy : WF y) :
    (cmp x y = 0 ∧ val x = val y) ∨ (cmp x y = 1 ∧ val x > val y) ∨
    (cmp x y = -1 ∧ val x < val y) := by
  unfold cmp
  split
  · split
    · rename_i h
      right; left; exact ⟨rfl, hy.val_lt_of_length hx h⟩
    · rename_i h1 h2
      right; right; exact ⟨rfl, hx.val_lt_of_length hy (by omega)⟩
  · rename_i h
    exact cmpEq_spec x y (by simpa using h) hx.isWords hy.isWords

namespace Vuint

theorem trimRev_spec (x : List ℕ) : ∃ k, x = List.replicate k 0 ++ trimRev x ∧
    ((trimRev x).length = 1 ∨ (trimRev x).head? ≠ some 0) ∧ (x ≠ [] → trimRev x ≠ []) := by
  induction x with
  | nil => exact ⟨0, by simp [trimRev]⟩
  | cons a as ih =>
    cases as with
    | nil => exact ⟨0, by simp [trimRev]⟩
    | cons b bs =>
      unfold trimRev
      split
      · rename_i h
        exact ⟨0, by simp [h]⟩
      · rename_i h
        obtain ⟨k, h1, h2, h3⟩ := ih
        have ha : a = 0 := by simpa using h
        refine ⟨k + 1, ?_, h2, fun _ => h3 (by simp)⟩
        rw [List.replicate_succ, List.cons_append, ← h1, ha]

theorem trim_spec (x : List ℕ) (hn : 0 < x.length) : ∃ k, x = trim x ++ List.replicate k 0 ∧
    ((trim x).length = 1 ∨ (trim x).getLast? ≠ some 0) ∧ 0 < (trim x).length := by
  obtain ⟨k, h1, h2, h3⟩ := trimRev_spec x.reverse
  refine ⟨k, ?_, ?_, ?_⟩
  · have := congrArg List.reverse h1
    simpa [trim] using this
  · simpa [trim] using h2
  · have : x.reverse ≠ [] := by
      intro h; simp at h; simp [h] at hn
    have := h3 this
    simp only [trim, List.length_reverse]
    exact List.length_pos_of_ne_nil this

theorem val_trim (x : List ℕ) : val (trim x) = val x := by
  rcases Nat.eq_zero_or_pos x.length with h | h
  · have : x = [] := List.length_eq_zero_iff.1 h
    subst this; rfl
  · obtain ⟨k, h1, -, -⟩ := trim_spec x h
    conv_rhs => rw [h1]
    simp [val_append]

theorem wf_trim {x : List ℕ} (hn : 0 < x.length) (hw : Words x) (hl : x.length ≤ 9) :
    WF (trim x) := by
  obtain ⟨k, h1, h2, h3⟩ := trim_spec x hn
  have hlen : (trim x).length ≤ x.length := by
    conv_rhs => rw [h1]
    simp
  refine ⟨h3, by omega, ?_, h2⟩
  intro w hw'
  apply hw
  rw [h1]; exact List.mem_append_left _ hw'

/-- trimming never allocates too much: a value below `B64^9` fits -/
theorem trim_length_le {x : List ℕ} (hn : 0 < x.length) {n : ℕ} (hpos : 0 < n)
    (h : val x < B64 ^ n) : (trim x).length ≤ n := by
  obtain ⟨k, h1, h2, h3⟩ := trim_spec x hn
  rcases h2 with h2 | h2
  · omega
  · have := val_ge_of_last h3 h2
    rw [val_trim] at this
    by_contra hc
    have h4 : B64 ^ n ≤ B64 ^ ((trim x).length - 1) := Nat.pow_le_pow_right B64_pos (by omega)
    omega

end Vuint
end Verif
