import Verif.Vuint.Estimate

/-! Helper lemmas: the division loop. -/

namespace Verif
namespace Vuint
open Dbl

theorem getApp_drop (x : List ℕ) (k : ℕ) (b : Bool) (h : k + 2 ≤ x.length) :
    getApp (x.drop k) b = getApp x b := by
  have e1 : (x.drop k).getD ((x.drop k).length - 1) 0 = x.getD (x.length - 1) 0 := by
    simp only [List.getD_eq_getElem?_getD, List.getElem?_drop, List.length_drop]
    congr 2; omega
  have e2 : (x.drop k).getD ((x.drop k).length - 2) 0 = x.getD (x.length - 2) 0 := by
    simp only [List.getD_eq_getElem?_getD, List.getElem?_drop, List.length_drop]
    congr 2; omega
  unfold getApp
  rw [e1, e2]

theorem drop_top (x : List ℕ) (k : ℕ) (h : k + 1 ≤ x.length) :
    (x.drop k).getD ((x.drop k).length - 1) 0 = x.getD (x.length - 1) 0 := by
  simp only [List.getD_eq_getElem?_getD, List.getElem?_drop, List.length_drop]
  congr 2; omega

theorem getD_words {q : List ℕ} (hq : Words q) (k : ℕ) : q.getD k 0 < B64 := by
  rw [List.getD_eq_getElem?_getD]
  cases h : q[k]? with
  | none => simp
  | some w => simpa using hq w (List.mem_of_getElem? h)

theorem val_getD (q : List ℕ) (hq : Words q) (k : ℕ) : q.getD k 0 = val q / B64 ^ k % B64 := by
  induction q generalizing k with
  | nil => simp
  | cons a as ih =>
    rw [words_cons] at hq
    cases k with
    | zero =>
      rw [pow_zero, Nat.div_one, val_cons, Nat.add_mul_mod_self_left, Nat.mod_eq_of_lt hq.1]
      rfl
    | succ k =>
      have e : val (a :: as) / B64 ^ (k + 1) = val as / B64 ^ k := by
        rw [pow_succ, Nat.mul_comm, ← Nat.div_div_eq_div_mul, val_cons,
          Nat.add_mul_div_left _ _ B64_pos, Nat.div_eq_of_lt hq.1, Nat.zero_add]
      rw [e, ← ih hq.2 k]
      simp

theorem val_set (q : List ℕ) (k v : ℕ) (hk : k < q.length) :
    val (q.set k v) + B64 ^ k * q.getD k 0 = val q + B64 ^ k * v := by
  induction q generalizing k with
  | nil => simp at hk
  | cons a as ih =>
    cases k with
    | zero =>
      rw [pow_zero, Nat.one_mul, Nat.one_mul]
      have h1 : (a :: as).getD 0 0 = a := rfl
      have h2 : (a :: as).set 0 v = v :: as := rfl
      rw [h1, h2, val_cons, val_cons]
      omega
    | succ k =>
      have := ih k (by simpa using hk)
      have h1 : (a :: as).getD (k + 1) 0 = as.getD k 0 := by simp
      have h2 : (a :: as).set (k + 1) v = a :: as.set k v := rfl
      have e1 : B64 ^ (k + 1) * as.getD k 0 = B64 * (B64 ^ k * as.getD k 0) := by
        rw [pow_succ, Nat.mul_comm (B64 ^ k), Nat.mul_assoc]
      have e2 : B64 ^ (k + 1) * v = B64 * (B64 ^ k * v) := by
        rw [pow_succ, Nat.mul_comm (B64 ^ k), Nat.mul_assoc]
      rw [h1, h2, val_cons, val_cons, e1, e2, Nat.add_assoc, Nat.add_assoc, ← Nat.mul_add,
        ← Nat.mul_add, this]

theorem words_set {q : List ℕ} (hq : Words q) (k v : ℕ) (hv : v < B64) : Words (q.set k v) := by
  intro w hw
  rcases List.mem_or_eq_of_mem_set hw with h | h
  · exact hq w h
  · rw [h]; exact hv

/-- dropping zero top words -/
theorem dropTop_spec (k : ℕ) (L : List ℕ) :
    val (dropTop k L).reverse = val L.reverse ∧ (dropTop k L).length ≤ L.length ∧
    (∀ w ∈ dropTop k L, w ∈ L) ∧
    ((dropTop k L).length + k ≤ L.length ∨ (dropTop k L).head? ≠ some 0) := by
  induction k generalizing L with
  | zero => refine ⟨by simp [dropTop], by simp [dropTop], by simp [dropTop], by simp [dropTop]⟩
  | succ k ih =>
    cases L with
    | nil => simp [dropTop]
    | cons a as =>
      by_cases ha : a = 0
      · subst ha
        obtain ⟨h1, h2, h3, h4⟩ := ih as
        have e : dropTop (k + 1) (0 :: as) = dropTop k as := rfl
        rw [e]
        refine ⟨?_, by simp; omega, fun w hw => List.mem_cons_of_mem _ (h3 w hw), ?_⟩
        · rw [h1, List.reverse_cons, val_append]; simp
        · rcases h4 with h4 | h4
          · left; simp; omega
          · right; exact h4
      · have e : dropTop (k + 1) (a :: as) = a :: as := by
          cases a with
          | zero => exact absurd rfl ha
          | succ a => rfl
        rw [e]
        exact ⟨rfl, le_refl _, fun w hw => hw, Or.inr (by simpa using ha)⟩

/-- loop invariant of the division -/
structure DivInv (N : ℕ) (y q x : List ℕ) : Prop where
  wx : Words x
  wq : Words q
  xpos : 1 ≤ x.length
  top : y.length ≤ x.length → x.getD (x.length - 1) 0 ≠ 0
  len : x.length + 1 ≤ q.length + y.length
  sum : val q * val y + val x = N
  pos : ∃ k, B64 ^ k ∣ val q ∧
    (val q / B64 ^ k % B64) * (B64 ^ k * val y) + val x < B64 ^ k * B64 * val y

/-- one round keeps the invariant and decreases the remainder -/
theorem divRound_spec {N : ℕ} {y q x : List ℕ} (hy : WF y) (hy2 : 2 ≤ y.length)
    (inv : DivInv N y q x) (hc : cmp x y ≥ 0) :
    ∃ q' x', divRound (getApp y true) y q x = .ok (q', x') ∧ DivInv N y q' x' ∧
      q'.length = q.length ∧ x'.length ≤ x.length ∧ val x' < val x := by
  obtain ⟨wx, wq, hxpos, htop, hlen, hsum, k0, hdvd, hpos⟩ := inv
  have hxy : y.length ≤ x.length := by
    by_contra h
    have : cmp x y = -1 := by
      unfold cmp
      rw [if_pos (by omega), if_neg (by omega)]
    omega
  have hH := htop hxy
  have hYge := hy.val_ge (by omega)
  have hYlt := hy.val_lt
  have hY0 : 0 < val y := lt_of_lt_of_le (Nat.pow_pos B64_pos) hYge
  -- comparison of the top words
  set hi := x.drop (x.length - y.length) with hhi
  have hhil : hi.length = y.length := by simp [hhi]; omega
  have hcmp : (cmp hi y < 0 ∧ val hi < val y) ∨ (¬ cmp hi y < 0 ∧ val y ≤ val hi) := by
    have := cmpEq_spec hi y hhil (wx.drop _) hy.isWords
    have e : cmp hi y = cmpEq hi y := by unfold cmp; rw [if_neg (by omega)]
    rw [e]
    rcases this with ⟨h1, h2⟩ | ⟨h1, h2⟩ | ⟨h1, h2⟩
    · right; omega
    · right; omega
    · left; omega
  -- the top of y for GetApp
  have hyH : y.getD (y.length - 1) 0 ≠ 0 := by
    rcases hy.top with h | h
    · omega
    · rw [List.getLast?_eq_getElem?] at h
      rw [List.getD_eq_getElem?_getD]
      rw [List.getElem?_eq_getElem (by omega)] at h ⊢
      simpa using h
  obtain ⟨hym, hup⟩ := getApp_up y hy.isWords hy2 hyH
  have hBq : (0 : ℚ) < ((B64 : ℕ) : ℚ) := by norm_num
  have hheady : 0 < head y := by
    unfold head
    have : (0 : ℚ) < val y := by exact_mod_cast hY0
    positivity
  -- choose len, k, X and the estimate
  obtain ⟨len, hlenle, hlenge, X, hXdef, hXY, hXB, qt0, hest⟩ :
      ∃ len, len ≤ x.length ∧ (len = y.length ∨ len = y.length + 1) ∧
      ∃ X, X = val (x.drop (x.length - len)) ∧ val y ≤ X ∧ X < B64 * val y ∧
      ∃ qt0 : ℕ, ((if cmp hi y < 0 then y.length + 1 else y.length) = len ∧
        (((if cmp hi y < 0 then
          (getApp x false).mul ((Dbl.ofNat (2 ^ 63)).mul (Dbl.ofNat 2)) else getApp x false).div
            (getApp y true)).toU64 = .ok qt0) ∧ qt0 * val y ≤ X) := by
    rcases hcmp with ⟨h1, h2⟩ | ⟨h1, h2⟩
    · -- one more word
      have hlt : y.length < x.length := by
        by_contra h
        have e : x.length = y.length := by omega
        have : hi = x := by rw [hhi, e]; simp
        rw [this] at h1
        omega
      have hk : x.length - (y.length + 1) + 1 = x.length - y.length := by omega
      set w := x.drop (x.length - (y.length + 1)) with hw
      have hwl : w.length = y.length + 1 := by simp [hw]; omega
      have hwW : Words w := wx.drop _
      have hwtop : w.getD (w.length - 1) 0 ≠ 0 := by
        rw [hw, drop_top x _ (by omega)]; exact hH
      obtain ⟨gn, gle⟩ := getApp_low w hwW (by omega) hwtop
      have hga : getApp w false = getApp x false := getApp_drop x _ _ (by omega)
      rw [hga] at gn gle
      obtain ⟨mn, mv⟩ := mul_B64 _ gn
      -- w = w0 :: hi
      have hsplit : ∃ w0, w = w0 :: hi ∧ w0 < B64 := by
        have : w.drop 1 = hi := by
          rw [hw, hhi, List.drop_drop]; congr 1
        cases hwc : w with
        | nil => rw [hwc] at hwl; simp at hwl
        | cons a as =>
          rw [hwc] at this hwW
          simp at this
          exact ⟨a, by rw [this], (words_cons.1 hwW).1⟩
      obtain ⟨w0, hwc, hw0⟩ := hsplit
      have hXv : val w = w0 + B64 * val hi := by rw [hwc, val_cons]
      have hXlt : val w < B64 * val y := by
        rw [hXv]
        have : B64 * (val hi + 1) ≤ B64 * val y := Nat.mul_le_mul_left _ h2
        rw [Nat.mul_add, Nat.mul_one] at this
        omega
      have hXge : val y ≤ val w := by
        have hg := val_ge_of_last (x := w) (by omega) (by
          rw [List.getLast?_eq_getElem?]
          rw [List.getD_eq_getElem?_getD] at hwtop
          rw [List.getElem?_eq_getElem (by omega)] at hwtop ⊢
          simpa using hwtop)
        rw [hwl, Nat.add_sub_cancel] at hg
        exact hYlt.le.trans hg
      have hle : ((getApp x false).mul ((Dbl.ofNat (2 ^ 63)).mul (Dbl.ofNat 2))).rv / head y
          ≤ (val w : ℚ) / val y := by
        rw [mv]
        have hyv : (0 : ℚ) < val y := by exact_mod_cast hY0
        rw [div_le_div_iff₀ hheady hyv]
        have e1 : head w * 2 ^ 64 * val y = val w * head y := by
          unfold head
          rw [hwl, Nat.add_sub_cancel]
          have : y.length = y.length - 1 + 1 := by omega
          rw [B64_cast]
          conv_lhs => rw [this, pow_succ]
          field_simp
        rw [← e1]
        exact mul_le_mul_of_nonneg_right (mul_le_mul_of_nonneg_right gle (by norm_num)) hyv.le
      have hd := div_le _ (getApp y true) (head y) mn hym hheady hup
      have hfin := hd.trans hle
      have hyv : (0 : ℚ) < val y := by exact_mod_cast hY0
      have hlt64 : (val w : ℚ) / val y < 2 ^ 64 := by
        rw [div_lt_iff₀ hyv, ← B64_cast]; exact_mod_cast hXlt
      obtain ⟨n, hn1, hn2⟩ := toU64_spec _ (lt_of_le_of_lt hfin hlt64)
      refine ⟨y.length + 1, by omega, Or.inr rfl, val w, rfl, hXge, hXlt, n, ?_, ?_, ?_⟩
      · rw [if_pos h1]
      · rw [if_pos h1]; exact hn1
      · have := hn2.trans hfin
        rw [le_div_iff₀ hyv] at this
        exact_mod_cast this
    · obtain ⟨gn, gle⟩ := getApp_low hi (wx.drop _) (by omega) (by
        rw [hhi, drop_top x _ (by omega)]; exact hH)
      have hga : getApp hi false = getApp x false := getApp_drop x _ _ (by omega)
      rw [hga] at gn gle
      have hXlt : val hi < B64 * val y := by
        have h3 := val_lt (wx.drop (x.length - y.length))
        rw [← hhi, hhil] at h3
        have h4 : B64 * B64 ^ (y.length - 1) ≤ B64 * val y := Nat.mul_le_mul_left _ hYge
        rw [Nat.mul_comm, ← pow_succ, show y.length - 1 + 1 = y.length by omega] at h4
        exact lt_of_lt_of_le h3 h4
      have hyv : (0 : ℚ) < val y := by exact_mod_cast hY0
      have hle : (getApp x false).rv / head y ≤ (val hi : ℚ) / val y := by
        rw [div_le_div_iff₀ hheady hyv]
        have e1 : head hi * val y = val hi * head y := by
          unfold head
          rw [hhil]; ring
        rw [← e1]
        exact mul_le_mul_of_nonneg_right gle hyv.le
      have hd := div_le _ (getApp y true) (head y) gn hym hheady hup
      have hfin := hd.trans hle
      have hlt64 : (val hi : ℚ) / val y < 2 ^ 64 := by
        rw [div_lt_iff₀ hyv, ← B64_cast]; exact_mod_cast hXlt
      obtain ⟨n, hn1, hn2⟩ := toU64_spec _ (lt_of_le_of_lt hfin hlt64)
      refine ⟨y.length, hxy, Or.inl rfl, val hi, rfl, h2, hXlt, n, ?_, ?_, ?_⟩
      · rw [if_neg h1]
      · rw [if_neg h1]; exact hn1
      · have := hn2.trans hfin
        rw [le_div_iff₀ hyv] at this
        exact_mod_cast this
  obtain ⟨hlenif, hu64, hqt0⟩ := hest
  -- the digit actually used
  set qt := (if qt0 = 0 then 1 else qt0) with hqtdef
  have hqt1 : 1 ≤ qt := by rw [hqtdef]; split <;> omega
  have hqtX : qt * val y ≤ X := by
    rw [hqtdef]; split
    · rw [Nat.one_mul]; exact hXY
    · exact hqt0
  have hqtB : qt < B64 := by
    by_contra h
    have : B64 * val y ≤ qt * val y := Nat.mul_le_mul_right _ (by omega)
    omega
  set k := x.length - len with hk
  have hklen : (x.drop k).length = len := by simp [hk]; omega
  obtain ⟨m1, m2, m3⟩ := mul1_spec y qt hy.isWords hqtB
  have hXlt : X < B64 ^ len := by
    rw [hXdef, ← hklen]; exact val_lt (wx.drop k)
  -- the product fits in len words
  have htv : val ((mul1 y qt).take len) = val y * qt := by
    rw [← m3]
    rcases hlenge with h | h
    · have h1 := val_take_add_drop (mul1 y qt) len (by omega)
      have h2 : val (mul1 y qt) < B64 ^ len := by
        rw [m3, Nat.mul_comm]; exact lt_of_le_of_lt hqtX hXlt
      have h3 : val ((mul1 y qt).drop len) = 0 := by
        by_contra hne
        have : B64 ^ len * 1 ≤ B64 ^ len * val ((mul1 y qt).drop len) :=
          Nat.mul_le_mul_left _ (Nat.pos_of_ne_zero hne)
        omega
      rw [h3, Nat.mul_zero, Nat.add_zero] at h1
      exact h1
    · rw [List.take_of_length_le (by omega)]
  have htl : ((mul1 y qt).take len).length = len := by
    rw [List.length_take, m1]; omega
  obtain ⟨s1, s2, s3, s4⟩ := subN_spec (x.drop k) ((mul1 y qt).take len) (by omega)
    (wx.drop k) (m2.take _)
  rw [htv, ← hXdef, hklen] at s4
  set r := subN (x.drop k) ((mul1 y qt).take len) with hr
  have hrlt := val_lt s2
  rw [s1, hklen] at hrlt
  have hnob : r.2 = 0 := by
    by_contra hne
    have : r.2 = 1 := by omega
    rw [this, Nat.mul_one] at s4
    rw [Nat.mul_comm] at hqtX
    omega
  rw [hnob, Nat.mul_zero, Nat.add_zero] at s4
  -- new remainder
  set x1 := x.take k ++ r.1 with hx1
  have hkx : (x.take k).length = k := by simp; omega
  have hx1l : x1.length = x.length := by
    rw [hx1, List.length_append, hkx, s1, hklen]; omega
  have hx1w : Words x1 := words_append.2 ⟨wx.take _, s2⟩
  have hxval := val_take_add_drop x k (by omega)
  rw [← hXdef] at hxval
  have hx1v : val x1 + B64 ^ k * (val y * qt) = val x := by
    rw [hx1, val_append, hkx, Nat.add_assoc, ← Nat.mul_add, s4, hxval]
  obtain ⟨d1, d2, d3, d4⟩ := dropTop_spec (x.length - y.length + 1) x1.reverse
  set x2 := (dropTop (x.length - y.length + 1) x1.reverse).reverse with hx2
  have hx2v : val x2 = val x1 := by rw [hx2, d1, List.reverse_reverse]
  have hx2w : Words x2 := by
    intro w hw
    have : w ∈ x1.reverse := d3 w (by simpa [hx2] using hw)
    exact hx1w w (by simpa using this)
  have hx2l : x2.length ≤ x.length := by
    rw [hx2, List.length_reverse]
    rw [List.length_reverse, hx1l] at d2; exact d2
  have hx2top : y.length ≤ x2.length → x2.getD (x2.length - 1) 0 ≠ 0 := by
    intro hge
    rcases d4 with h | h
    · exfalso
      rw [List.length_reverse, hx1l] at h
      rw [hx2, List.length_reverse] at hge
      omega
    · have e : x2.getD (x2.length - 1) 0
          = ((dropTop (x.length - y.length + 1) x1.reverse).head?).getD 0 := by
        rw [List.getD_eq_getElem?_getD, ← List.getLast?_eq_getElem?, hx2, List.getLast?_reverse]
      rw [e]
      cases hh : (dropTop (x.length - y.length + 1) x1.reverse).head? with
      | none =>
        rw [List.head?_eq_none_iff] at hh
        rw [hx2, hh, List.reverse_nil, List.length_nil] at hge
        omega
      | some v => rw [hh] at h; simpa using h
  have hdec : val x2 < val x := by
    rw [hx2v]
    have : 0 < B64 ^ k * (val y * qt) := by positivity
    omega
  -- position argument
  have hP : 0 < B64 ^ k := Nat.pow_pos B64_pos
  have hxbound : val x < B64 ^ k * B64 * val y := by
    -- val (take k) < B64^k and X + 1 ≤ B64 * val y
    have h1 := val_lt (wx.take k)
    rw [hkx] at h1
    have h2 : B64 ^ k * (X + 1) ≤ B64 ^ k * (B64 * val y) := Nat.mul_le_mul_left _ hXB
    rw [Nat.mul_add, Nat.mul_one, ← Nat.mul_assoc] at h2
    omega
  have hkk0 : k ≤ k0 := by
    by_contra hgt
    have h1 : B64 ^ (k0 + 1) ≤ B64 ^ k := Nat.pow_le_pow_right B64_pos (by omega)
    have h2 : B64 ^ k0 * B64 * val y ≤ B64 ^ k * val y := by
      rw [← pow_succ]; exact Nat.mul_le_mul_right _ h1
    have h3 : B64 ^ k * val y ≤ B64 ^ k * (val y * qt) :=
      Nat.mul_le_mul_left _ (Nat.le_mul_of_pos_right _ hqt1)
    omega
  have hdk : B64 ^ k ∣ val q := (pow_dvd_pow _ hkk0).trans hdvd
  have hg : (val q / B64 ^ k % B64) * (B64 ^ k * val y) + val x < B64 ^ k * B64 * val y := by
    rcases Nat.eq_or_lt_of_le hkk0 with h | h
    · rw [h]; exact hpos
    · have h1 : B64 ^ (k + 1) ∣ val q := (pow_dvd_pow _ h).trans hdvd
      have h2 : val q / B64 ^ k % B64 = 0 := by
        obtain ⟨c, hcq⟩ := h1
        rw [hcq, pow_succ, Nat.mul_assoc, Nat.mul_div_cancel_left _ hP, Nat.mul_mod_right]
      rw [h2, Nat.zero_mul, Nat.zero_add]; exact hxbound
  set g := val q / B64 ^ k % B64 with hgdef
  have hgv : q.getD k 0 = g := val_getD q wq k
  have hgq : g + qt < B64 := by
    by_contra hge
    have h1 : B64 ≤ g + qt := by omega
    have h2 : B64 * (B64 ^ k * val y) ≤ (g + qt) * (B64 ^ k * val y) := Nat.mul_le_mul_right _ h1
    rw [Nat.add_mul] at h2
    have h3 : qt * (B64 ^ k * val y) = B64 ^ k * (val y * qt) := by ring
    have h4 : B64 * (B64 ^ k * val y) = B64 ^ k * B64 * val y := by
      rw [Nat.mul_comm (B64 ^ k) B64, Nat.mul_assoc]
    rw [h3, h4] at h2
    omega
  have hkq : k < q.length := by
    rw [hk]; rcases hlenge with h | h <;> omega
  set q' := q.set k ((q.getD k 0 + qt) % B64) with hq'
  have hq'v : val q' = val q + B64 ^ k * qt := by
    have h := val_set q k ((q.getD k 0 + qt) % B64) hkq
    rw [← hq', hgv, Nat.mod_eq_of_lt hgq, Nat.mul_add] at h
    omega
  refine ⟨q', x2, ?_, ⟨hx2w, words_set wq _ _ (Nat.mod_lt _ B64_pos), ?_, hx2top, ?_, ?_, ?_⟩, by simp [hq'], hx2l, hdec⟩
  · unfold divRound
    simp only [← hhi, hlenif, decide_eq_true_eq]
    rw [if_neg (by omega), hu64]
    simp only [Res.bind_ok]
    rw [← hqtdef, ← hk, ← hr, if_neg (by omega), ← hx1, ← hx2]
    rfl
  · -- length stays positive
    rcases d4 with h | h
    · -- exactly k words dropped at most
      by_contra hz
      have hz' : x2 = [] := List.eq_nil_of_length_eq_zero (by omega)
      have hlen2 : (dropTop (x.length - y.length + 1) x1.reverse).length + (x.length - y.length + 1) ≥ x1.reverse.length := by
        clear h d1 d2 d3
        have aux : ∀ (k : ℕ) (L : List ℕ), L.length ≤ (dropTop k L).length + k := by
          intro k
          induction k with
          | zero => intro L; simp [dropTop]
          | succ k ih =>
            intro L
            cases L with
            | nil => simp
            | cons a as =>
              cases a with
              | zero =>
                have e : dropTop (k + 1) (0 :: as) = dropTop k as := rfl
                rw [e]; have := ih as; simp; omega
              | succ a =>
                have e : dropTop (k + 1) ((a + 1) :: as) = (a + 1) :: as := rfl
                rw [e]; omega
        exact aux _ _
      rw [hx2] at hz
      rw [List.length_reverse] at hz
      rw [List.length_reverse, hx1l] at hlen2
      omega
    · by_contra hz
      have aux : ∀ (k : ℕ) (L : List ℕ), L.length ≤ (dropTop k L).length + k := by
        intro k
        induction k with
        | zero => intro L; simp [dropTop]
        | succ k ih =>
          intro L
          cases L with
          | nil => simp
          | cons a as =>
            cases a with
            | zero =>
              have e : dropTop (k + 1) (0 :: as) = dropTop k as := rfl
              rw [e]; have := ih as; simp; omega
            | succ a =>
              have e : dropTop (k + 1) ((a + 1) :: as) = (a + 1) :: as := rfl
              rw [e]; omega
      have h5 := aux (x.length - y.length + 1) x1.reverse
      rw [hx2, List.length_reverse] at hz
      rw [List.length_reverse, hx1l] at h5
      omega
  · rw [hq', List.length_set]; omega
  · rw [hq'v, hx2v, Nat.add_mul]
    have : B64 ^ k * qt * val y = B64 ^ k * (val y * qt) := by ring
    omega
  · refine ⟨k, ?_, ?_⟩
    · rw [hq'v]; exact dvd_add hdk (Dvd.intro _ rfl)
    · have h1 : val q' / B64 ^ k % B64 = g + qt := by
        rw [← val_getD q' (words_set wq _ _ (Nat.mod_lt _ B64_pos)), hq', hgv,
          Nat.mod_eq_of_lt hgq, List.getD_eq_getElem?_getD, List.getElem?_set_self hkq]
        rfl
      rw [h1, Nat.add_mul, hx2v]
      have h3 : qt * (B64 ^ k * val y) = B64 ^ k * (val y * qt) := by ring
      rw [h3]
      omega

theorem divLoop_spec {N : ℕ} {y : List ℕ} (hy : WF y) (hy2 : 2 ≤ y.length) (fuel : ℕ)
    (q x : List ℕ) (inv : DivInv N y q x) (hf : val x < fuel) :
    ∃ q' x', divLoop (getApp y true) y fuel q x = .ok (q', x') ∧ DivInv N y q' x' ∧
      q'.length = q.length ∧ x'.length ≤ x.length ∧ val x' < val y := by
  induction fuel generalizing q x with
  | zero => omega
  | succ fuel ih =>
    unfold divLoop
    by_cases hc : cmp x y ≥ 0
    · rw [if_pos hc]
      obtain ⟨q1, x1, e, inv1, l1, l2, hdec⟩ := divRound_spec hy hy2 inv hc
      rw [e]
      simp only [Res.bind_ok]
      obtain ⟨q2, x2, e2, inv2, m1, m2, m3⟩ := ih q1 x1 inv1 (by omega)
      exact ⟨q2, x2, e2, inv2, by omega, by omega, m3⟩
    · rw [if_neg hc]
      refine ⟨q, x, rfl, inv, rfl, le_refl _, ?_⟩
      by_cases hl : x.length = y.length
      · have h := cmpEq_spec x y hl inv.wx hy.isWords
        have e : cmp x y = cmpEq x y := by unfold cmp; rw [if_neg (by omega)]
        rw [e] at hc
        omega
      · rcases Nat.lt_or_ge x.length y.length with h | h
        · have h1 := val_lt inv.wx
          have h2 := hy.val_ge (by omega)
          have h3 : B64 ^ x.length ≤ B64 ^ (y.length - 1) := Nat.pow_le_pow_right B64_pos (by omega)
          exact lt_of_lt_of_le h1 (h3.trans h2)
        · exfalso
          apply hc
          unfold cmp
          rw [if_pos (by omega), if_pos (by omega)]
          norm_num

theorem divRaw_spec {x y : List ℕ} (hx : WF x) (hy : WF y) (hy2 : 2 ≤ y.length)
    (hl : y.length ≤ x.length) :
    (y.length ≤ 8 → ∃ q r, divRaw x y = .ok (q, r) ∧ Words q ∧ Words r ∧
      q.length = x.length - y.length + 1 ∧ r.length = x.length ∧
      val q = val x / val y ∧ val r = val x % val y) ∧
    (y.length = 9 → divRaw x y = .exit) := by
  have hYge := hy.val_ge (by omega)
  have hY0 : 0 < val y := lt_of_lt_of_le (Nat.pow_pos B64_pos) hYge
  unfold divRaw
  rw [if_neg (by omega)]
  constructor
  · intro h8
    rw [alloc_ok (by omega)]
    simp only [Res.bind_ok]
    have inv : DivInv (val x) y (List.replicate (x.length - y.length + 1) 0) x := by
      refine ⟨hx.isWords, words_replicate_zero _, hx.pos, ?_, by simp; omega, by simp, ?_⟩
      · intro _
        rcases hx.top with h | h
        · omega
        · rw [List.getLast?_eq_getElem?] at h
          rw [List.getD_eq_getElem?_getD]
          rw [List.getElem?_eq_getElem (by omega)] at h ⊢
          simpa using h
      · refine ⟨x.length - y.length, by simp, ?_⟩
        rw [val_replicate_zero, Nat.zero_div, Nat.zero_mod, Nat.zero_mul, Nat.zero_add]
        have h1 := hx.val_lt
        have h2 : B64 ^ (x.length - y.length) * B64 * B64 ^ (y.length - 1)
            ≤ B64 ^ (x.length - y.length) * B64 * val y := Nat.mul_le_mul_left _ hYge
        rw [← pow_succ, ← pow_add, show x.length - y.length + 1 + (y.length - 1) = x.length by omega,
          pow_succ] at h2
        exact lt_of_lt_of_le h1 h2
    obtain ⟨q, r, e, inv', l1, l2, hlt⟩ := divLoop_spec hy hy2 (val x + 1) _ x inv (by omega)
    rw [e]
    refine ⟨_, _, rfl, inv'.wq, words_append.2 ⟨inv'.wx, words_replicate_zero _⟩, by simp [l1],
      by simp; omega, ?_, ?_⟩
    · rw [← inv'.sum, Nat.mul_comm, Nat.mul_add_div hY0, Nat.div_eq_of_lt hlt, Nat.add_zero]
    · rw [val_append, val_replicate_zero, Nat.mul_zero, Nat.add_zero, ← inv'.sum, Nat.mul_comm,
        Nat.mul_add_mod, Nat.mod_eq_of_lt hlt]
  · intro h9
    rw [alloc_exit (by omega)]; rfl

theorem wf_ofUnit {w : ℕ} (h : w < B64) : WF (ofUnit w) := by
  refine ⟨by simp [ofUnit], by simp [ofUnit], ?_, Or.inl (by simp [ofUnit])⟩
  have : Words (ofUnit w) := by simpa [ofUnit] using h
  exact this

theorem val_ofUnit (w : ℕ) : val (ofUnit w) = w := by simp [ofUnit]

theorem div_spec {x y : List ℕ} (hx : WF x) (hy : WF y) :
    (val y = 0 → div x y = .ok none) ∧
    (val y ≠ 0 → (val y < B64 ^ 8 ∨ val x ≤ val y) → ∃ q r, div x y = .ok (some (q, r)) ∧
      WF q ∧ WF r ∧ val q = val x / val y ∧ val r = val x % val y) ∧
    (B64 ^ 8 ≤ val y → val y < val x → div x y = .exit) := by
  by_cases h1 : y.length = 1
  · -- one-word divisor
    obtain ⟨w, hyw⟩ : ∃ w, y = [w] := List.length_eq_one_iff.1 h1
    subst hyw
    have hw : w < B64 := (words_cons.1 hy.isWords).1
    have hv : val [w] = w := by simp
    have hg : [w].getD 0 0 = w := rfl
    rw [hv]
    unfold div
    rw [if_pos h1, hg]
    refine ⟨fun h => by rw [if_pos h], fun h _ => ?_, fun h => ?_⟩
    · rw [if_neg h]
      obtain ⟨q, r, e, wq, vq, vr⟩ := divUnit_spec hx (Nat.pos_of_ne_zero h)
      rw [e]
      have hr : r < B64 := by
        rw [vr]; exact (Nat.mod_lt _ (Nat.pos_of_ne_zero h)).trans hw
      exact ⟨q, ofUnit r, rfl, wq, wf_ofUnit hr, vq, by rw [val_ofUnit, vr]⟩
    · exfalso
      have : B64 ≤ B64 ^ 8 := by norm_num
      omega
  · have hy2 : 2 ≤ y.length := by have := hy.pos; omega
    have hYge := hy.val_ge h1
    have hY0 : 0 < val y := lt_of_lt_of_le (Nat.pow_pos B64_pos) hYge
    unfold div
    rw [if_neg h1]
    simp only
    rcases cmp_spec hx hy with ⟨c, hv⟩ | ⟨c, hv⟩ | ⟨c, hv⟩
    · rw [if_neg (by omega), if_pos c]
      refine ⟨fun h => by omega, fun _ _ => ⟨_, _, rfl, wf_ofUnit (by norm_num),
        wf_ofUnit (by norm_num), ?_, ?_⟩, fun _ h => by omega⟩
      · rw [val_ofUnit, hv, Nat.div_self hY0]
      · rw [val_ofUnit, hv, Nat.mod_self]
    · rw [if_neg (by omega), if_neg (by omega)]
      have hl := hy.length_le hx hv.le
      rw [alloc_ok (by have := hx.len; omega)]
      simp only [Res.bind_ok]
      obtain ⟨r1, r2⟩ := divRaw_spec hx hy hy2 hl
      refine ⟨fun h => by omega, fun _ hor => ?_, fun h8 _ => ?_⟩
      · have hlt8 : val y < B64 ^ 8 := by rcases hor with h | h <;> omega
        have h8 : y.length ≤ 8 := by
          by_contra hgt
          have : B64 ^ 8 ≤ B64 ^ (y.length - 1) := Nat.pow_le_pow_right B64_pos (by omega)
          exact absurd (lt_of_lt_of_le hlt8 this) (Nat.not_lt.2 hYge)
        obtain ⟨q, r, e, wq, wr, lq, lr, vq, vr⟩ := r1 h8
        rw [e]
        have hxl := hx.len
        refine ⟨_, _, rfl, wf_trim (show 0 < q.length by omega) wq (show q.length ≤ 9 by omega),
          wf_trim (show 0 < r.length by omega) wr (show r.length ≤ 9 by omega), ?_, ?_⟩
        · rw [val_trim, vq]
        · rw [val_trim, vr]
      · have h9 : y.length = 9 := by
          have hyl := hy.len
          by_contra hne
          have h3 : B64 ^ y.length ≤ B64 ^ 8 := Nat.pow_le_pow_right B64_pos (by omega)
          exact absurd (lt_of_lt_of_le hy.val_lt h3) (Nat.not_lt.2 h8)
        rw [r2 h9]; rfl
    · rw [if_pos (by omega)]
      refine ⟨fun h => by omega, fun _ _ => ⟨_, _, rfl, wf_ofUnit (by norm_num), hx, ?_, ?_⟩,
        fun _ h => by omega⟩
      · rw [val_ofUnit, Nat.div_eq_of_lt hv]
      · rw [Nat.mod_eq_of_lt hv]

end Vuint
end Verif
