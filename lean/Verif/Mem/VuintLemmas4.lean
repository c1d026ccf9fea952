import Verif.Mem.VuintLemmas3
import Verif.Vuint.DivLemmas

/-! Helper lemmas: division on objects. -/

namespace Verif
namespace Mem

theorem dropLen_spec (m : ℕ → ℕ) (x k : ℕ) : ∀ xn : ℕ,
    (Vuint.dropTop k (rd m x xn).reverse).reverse = rd m x (dropLen m x k xn) ∧ dropLen m x k xn ≤ xn ∧
    ∀ j, dropLen m x k xn ≤ j → j < xn → m (x + j) = 0 := by
  induction k with
  | zero =>
    intro xn
    have : dropLen m x 0 xn = xn := by cases xn <;> rfl
    rw [this]
    refine ⟨?_, le_rfl, fun j h1 h2 => by omega⟩
    show (Vuint.dropTop 0 (rd m x xn).reverse).reverse = _
    rw [show Vuint.dropTop 0 (rd m x xn).reverse = (rd m x xn).reverse by cases (rd m x xn).reverse <;> rfl, List.reverse_reverse]
  | succ k ih =>
    intro xn
    cases xn with
    | zero => exact ⟨rfl, le_rfl, fun j h1 h2 => by omega⟩
    | succ xn =>
      rw [rd_succ', List.reverse_append, List.reverse_singleton, List.singleton_append, dropLen]
      by_cases h : m (x + xn) = 0
      · rw [if_pos h, h]
        obtain ⟨a1, a2, a3⟩ := ih xn
        refine ⟨a1, by omega, fun j h1 h2 => ?_⟩
        rcases Nat.lt_or_ge j xn with h3 | h3
        · exact a3 j h1 h3
        · rw [show j = xn by omega, h]
      · rw [if_neg h]
        refine ⟨?_, le_rfl, fun j h1 h2 => by omega⟩
        have : Vuint.dropTop (k + 1) (m (x + xn) :: (rd m x xn).reverse) = m (x + xn) :: (rd m x xn).reverse := by
          generalize m (x + xn) = w at h
          cases w with
          | zero => exact absurd rfl h
          | succ w => rfl
        rw [this, List.reverse_cons, List.reverse_reverse, rd_succ']

/-- what the memory holds during the raw division -/
structure DInv (m : ℕ → ℕ) (q : Option ℕ) (x N y : ℕ) (Q X Y : List ℕ) : Prop where
  hx : rd m x X.length = X
  hN : X.length ≤ N
  zero : ∀ j, X.length ≤ j → j < N → m (x + j) = 0
  hy : rd m y Y.length = Y
  hq : ∀ a, q = some a → rd m a Q.length = Q

/-- the places of the raw division do not overlap; the buffer t is above all others -/
structure Places (q : Option ℕ) (x y t : ℕ) : Prop where
  xy : x + 10 ≤ y ∨ y + 10 ≤ x
  qx : ∀ a, q = some a → a + 10 ≤ x ∨ x + 10 ≤ a
  qy : ∀ a, q = some a → a + 10 ≤ y ∨ y + 10 ≤ a
  qt : ∀ a, q = some a → a + 10 ≤ t
  xt : x + 10 ≤ t
  yt : y + 10 ≤ t

/-- only words of x, of the quotient, and words from t on differ -/
def FrameD (m m' : ℕ → ℕ) (q : Option ℕ) (x t : ℕ) : Prop :=
  ∀ j, j < t → (j < x ∨ x + 9 ≤ j) → (∀ a, q = some a → j < a ∨ a + 9 ≤ j) → m' j = m j

theorem divRound_mem {yt : Dbl} {m : ℕ → ℕ} {q : Option ℕ} {x N y t : ℕ} {Q X Y Q' X' : List ℕ} (pl : Places q x y t)
    (inv : DInv m q x N y Q X Y) (hN : N ≤ 9) (hY : Y.length ≤ 8) (hYX : Y.length ≤ X.length) (hY0 : 0 < Y.length)
    (hQ : Q.length = N - Y.length + 1) (hr : Vuint.divRound yt Y Q X = .ok (Q', X')) :
    ∃ m', divRound yt m q x X.length y Y.length t = .ok (m', X'.length) ∧ DInv m' q x N y Q' X' Y ∧ Q'.length = Q.length ∧
      FrameD m m' q x t := by
  obtain ⟨ix, iN, iz, iy, iq⟩ := inv
  have pxy := pl.xy
  have pxt := pl.xt
  have pyt := pl.yt
  unfold Vuint.divRound at hr
  unfold divRound
  dsimp only at hr ⊢
  rw [ix, iy]
  have xdrop : ∀ k, X.drop k = rd m (x + k) (X.length - k) := by
    intro k
    rw [← rd_drop, ix]
  have hdrop : rd m (x + (X.length - Y.length)) Y.length = X.drop (X.length - Y.length) := by
    rw [xdrop]
    congr 1
    omega
  rw [hdrop]
  generalize (decide (cmp (X.drop (X.length - Y.length)) Y < 0)) = small at hr ⊢
  have hlen' : ∃ len, len = (if small = true then Y.length + 1 else Y.length) ∧ len ≤ Y.length + 1 ∧ Y.length ≤ len := by
    refine ⟨_, rfl, ?_, ?_⟩ <;> split_ifs <;> omega
  obtain ⟨len, hlen, hle, hge⟩ := hlen'
  rw [← hlen] at hr ⊢
  generalize (if small = true then (Vuint.getApp X false).mul (Dbl.mul (Dbl.ofNat (2 ^ 63)) (Dbl.ofNat 2)) else Vuint.getApp X false) = xt at hr ⊢
  by_cases hb : X.length < len
  · rw [if_pos hb] at hr
    cases hr
  rw [if_neg hb] at hr ⊢
  rcases hqt : (xt.div yt).toU64 with qt | _ | _ | _ | _ <;> rw [hqt] at hr <;> try cases hr
  rw [Res.bind_ok] at hr ⊢
  generalize (if qt = 0 then 1 else qt) = qt at hr ⊢
  rw [mul1_spec (Or.inr (by omega)), subN_spec (Or.inl le_rfl) (Or.inl (by omega)), iy]
  have hl : (mul1Loop Y qt 0).length = Y.length + 1 := length_mul1Loop
  have e1 : rd (wr m t (mul1Loop Y qt 0)) t len = (Verif.mul1 Y qt).take len := by
    rw [← rd_take (n := Y.length + 1) (by omega), ← hl, rd_wr]
    rfl
  have e2 : rd (wr m t (mul1Loop Y qt 0)) (x + (X.length - len)) len = X.drop (X.length - len) := by
    rw [rd_wr_out (by omega)]
    rw [xdrop]
    congr 1
    omega
  rw [e1, e2]
  have hsl : (subNLoop (X.drop (X.length - len)) ((Verif.mul1 Y qt).take len) 0).1.length = len := by
    have h1 : (X.drop (X.length - len)).length = len := by rw [List.length_drop]; omega
    rw [length_subNLoop, h1]
    rw [h1, List.length_take, show (Verif.mul1 Y qt).length = Y.length + 1 from hl]
    omega
  have e3 : Verif.subN (X.drop (X.length - len)) ((Verif.mul1 Y qt).take len) =
      subNLoop (X.drop (X.length - len)) ((Verif.mul1 Y qt).take len) 0 := rfl
  rw [e3] at hr
  generalize subNLoop (X.drop (X.length - len)) ((Verif.mul1 Y qt).take len) 0 = s at hr hsl ⊢
  by_cases hs2 : s.2 ≠ 0
  · rw [if_pos hs2] at hr
    cases hr
  rw [if_neg hs2] at hr ⊢
  rw [Res.pure_eq, Res.ok.injEq, Prod.mk.injEq] at hr
  obtain ⟨hQ', hX'⟩ := hr
  obtain ⟨m2, hm2⟩ : ∃ m2, m2 = wr (wr m t (mul1Loop Y qt 0)) (x + (X.length - len)) s.1 := ⟨_, rfl⟩
  have m2f : ∀ j, j < t → (j < x + (X.length - len) ∨ x + X.length ≤ j) → m2 j = m j := by
    intro j h1 h2
    rw [hm2, wr_outside (by omega), wr_outside (by omega)]
  have m2x : rd m2 x X.length = X.take (X.length - len) ++ s.1 := by
    rw [show X.length = (X.length - len) + len by omega, rd_append, show (X.length - len) + len = X.length by omega]
    congr 1
    · rw [show X.take (X.length - len) = rd m x (X.length - len) by rw [← rd_take (n := X.length) (by omega), ix]]
      exact rd_congr fun j h1 h2 => m2f j (by omega) (by omega)
    · rw [hm2, ← hsl]
      have : rd (wr (wr m t (mul1Loop Y qt 0)) (x + (X.length - s.1.length)) s.1) (x + (X.length - s.1.length)) s.1.length = s.1 := rd_wr
      exact this
  rw [← hm2]
  dsimp only
  -- the memory after the quotient word has been updated
  obtain ⟨m3, hm3⟩ : ∃ m3, m3 = addAt m2 q (X.length - len) qt := ⟨_, rfl⟩
  have m3f : ∀ j, (∀ a, q = some a → j < a ∨ a + 9 ≤ j) → m3 j = m2 j := by
    intro j h
    rw [hm3]
    cases q with
    | none => rfl
    | some a =>
      have := h a rfl
      exact Function.update_of_ne (by omega) ..
  have m3q : ∀ a, q = some a → rd m3 a Q'.length = Q' := by
    intro a ha
    have h1 := pl.qx a ha
    have h2 := pl.qt a ha
    have h3 := iq a ha
    subst ha
    rw [addAt] at hm3
    rw [← hQ', List.length_set]
    apply rd_eq (List.length_set ..)
    intro j hj
    have hg : ∀ i, i < Q.length → m2 (a + i) = Q.getD i 0 := by
      intro i hi
      rw [m2f _ (by omega) (by omega), ← rd_getD (m := m) (a := a) hi, h3]
    rw [hm3, List.getD_eq_getElem?_getD, List.getElem?_set]
    by_cases hk : X.length - len = j
    · rw [if_pos hk, if_pos (by omega), hk, Function.update_self, hg j hj]
      rfl
    · rw [if_neg hk, Function.update_of_ne (by omega), hg j hj, List.getD_eq_getElem?_getD]
  rw [← hm3]
  have m3x : rd m3 x X.length = X.take (X.length - len) ++ s.1 := by
    rw [← m2x]
    refine rd_congr fun j h1 h2 => m3f j fun a ha => ?_
    have := pl.qx a ha
    omega
  obtain ⟨d1, d2, d3⟩ := dropLen_spec m3 x (X.length - Y.length + 1) X.length
  rw [m3x, hX'] at d1
  have hxl : X'.length = dropLen m3 x (X.length - Y.length + 1) X.length := by rw [d1, length_rd]
  refine ⟨m3, by rw [hxl], ⟨by rw [hxl, ← d1], by omega, ?_, ?_, m3q⟩, by rw [← hQ', List.length_set], ?_⟩
  · intro j h1 h2
    rcases Nat.lt_or_ge j X.length with h | h
    · exact d3 j (by omega) h
    · rw [m3f _ fun a ha => by have := pl.qx a ha; omega, m2f _ (by omega) (by omega)]
      exact iz j h h2
  · rw [← iy, length_rd]
    refine rd_congr fun j h1 h2 => ?_
    rw [m3f _ fun a ha => by have := pl.qy a ha; omega, m2f _ (by omega) (by omega)]
  · intro j h1 h2 h3
    rw [m3f j h3, m2f j h1 (by omega)]

theorem divLoop_mem {yt : Dbl} {q : Option ℕ} {x N y t : ℕ} {Y : List ℕ} (pl : Places q x y t) (hN : N ≤ 9) (hY : Y.length ≤ 8)
    (hY0 : 0 < Y.length) (fuel : ℕ) : ∀ (m : ℕ → ℕ) (Q X Q' X' : List ℕ), DInv m q x N y Q X Y → Q.length = N - Y.length + 1 →
    Vuint.divLoop yt Y fuel Q X = .ok (Q', X') →
    ∃ m', divLoop yt q x y Y.length t fuel m X.length = .ok m' ∧ DInv m' q x N y Q' X' Y ∧ Q'.length = Q.length ∧ FrameD m m' q x t := by
  induction fuel with
  | zero => intro m Q X Q' X' _ _ h; cases h
  | succ fuel ih =>
    intro m Q X Q' X' inv hQ h
    rw [Vuint.divLoop] at h
    rw [divLoop, inv.hx, inv.hy]
    by_cases hc : cmp X Y ≥ 0
    · rw [if_pos hc] at h ⊢
      have hYX : Y.length ≤ X.length := by
        by_contra h
        have : cmp X Y = -1 := by
          unfold cmp
          rw [if_pos (by omega), if_neg (by omega)]
        omega
      rcases hr : Vuint.divRound yt Y Q X with s | _ | _ | _ | _ <;> rw [hr] at h <;> try cases h
      rw [Res.bind_ok] at h
      obtain ⟨m1, e1, i1, l1, f1⟩ := divRound_mem pl inv hN hY hYX hY0 hQ hr
      obtain ⟨m2, e2, i2, l2, f2⟩ := ih m1 s.1 s.2 Q' X' i1 (l1.trans hQ) h
      refine ⟨m2, ?_, i2, l2.trans l1, fun j h1 h2 h3 => (f2 j h1 h2 h3).trans (f1 j h1 h2 h3)⟩
      rw [e1, Res.bind_ok]
      exact e2
    · rw [if_neg hc] at h ⊢
      rw [Res.ok.injEq, Prod.mk.injEq] at h
      obtain ⟨rfl, rfl⟩ := h
      exact ⟨m, rfl, inv, rfl, fun _ _ _ _ => rfl⟩

/-- the raw division -/
theorem divRaw_mem {m : ℕ → ℕ} {q : Option ℕ} {x xn y t : ℕ} {X Y : List ℕ} (pl : Places q x y t)
    (hx : rd m x xn = X) (hy : rd m y Y.length = Y) (wx : WF X) (wy : WF Y) (hY2 : 2 ≤ Y.length) (hYX : Y.length ≤ X.length) :
    (∃ Q R m', Vuint.divRaw X Y = .ok (Q, R) ∧ divRaw m q x xn y Y.length t = .ok m' ∧ rd m' x xn = R ∧ R.length = xn ∧
      Q.length = xn - Y.length + 1 ∧ (∀ a, q = some a → rd m' a Q.length = Q) ∧ FrameD m m' q x t) ∨
    (Vuint.divRaw X Y = .exit ∧ divRaw m q x xn y Y.length t = .exit) := by
  have hxn : X.length = xn := by rw [← hx, length_rd]
  have hX9 := wx.len
  unfold Vuint.divRaw divRaw
  rw [hxn, if_neg (by omega), if_neg (by omega)]
  dsimp only
  by_cases h8 : Y.length ≤ 8
  · left
    rw [valloc_le (by omega), alloc_le (by omega), Res.bind_ok, Res.bind_ok]
    obtain ⟨m1, hm1⟩ : ∃ m1, m1 = fillO m q (xn - Y.length + 1) := ⟨_, rfl⟩
    rw [← hm1]
    have hr : (List.replicate (xn - Y.length + 1) 0 : List ℕ).length = xn - Y.length + 1 := List.length_replicate ..
    have hf : ∀ j, j < t → (∀ a, q = some a → j < a ∨ a + 9 ≤ j) → Function.update m1 (t + 9) (Y.length + 1) j = m j := by
      intro j h1 h2
      rw [Function.update_of_ne (by omega), hm1]
      cases q with
      | none => rfl
      | some a =>
        have := h2 a rfl
        exact wr_outside (by omega)
    generalize hm2 : Function.update m1 (t + 9) (Y.length + 1) = m2 at hf
    have pxt := pl.xt
    have pyt := pl.yt
    have ex : rd m2 x xn = X := by
      rw [← hx]
      refine rd_congr fun j h1 h2 => hf j (by omega) fun a ha => ?_
      have := pl.qx a ha
      omega
    have ey : rd m2 y Y.length = Y := by
      refine Eq.trans ?_ hy
      refine rd_congr fun j h1 h2 => hf j (by omega) fun a ha => ?_
      have := pl.qy a ha
      omega
    have inv : DInv m2 q x xn y (List.replicate (xn - Y.length + 1) 0) X Y := by
      refine ⟨by rw [hxn, ex], by omega, fun j h1 h2 => by omega, ey, ?_⟩
      intro a ha
      have := pl.qt a ha
      subst ha
      rw [← hm2, hm1, rd_update (by omega)]
      exact rd_wr
    obtain ⟨Q0, R0, e0, -⟩ := (Vuint.divRaw_spec wx wy hY2 hYX).1 h8
    unfold Vuint.divRaw at e0
    rw [hxn, if_neg (by omega), valloc_le (by omega), Res.bind_ok] at e0
    dsimp only at e0
    rcases e : Vuint.divLoop (Vuint.getApp Y true) Y (val X + 1) (List.replicate (xn - Y.length + 1) 0) X with s | _ | _ | _ | _ <;>
      rw [e] at e0 <;> try cases e0
    obtain ⟨Q, R⟩ := s
    obtain ⟨m3, e3, i3, l3, f3⟩ := divLoop_mem pl (by omega) h8 (by omega) (val X + 1) m2 _ X Q R inv hr e
    rw [Res.bind_ok]
    have hRl := i3.hN
    refine ⟨Q, R ++ List.replicate (xn - R.length) 0, m3, rfl, ?_, ?_, ?_, l3.trans hr, i3.hq, fun j h1 h2 h3 => (f3 j h1 h2 h3).trans (hf j h1 h3)⟩
    · rw [ex, ey, ← hxn]
      exact e3
    · apply rd_eq
      · rw [List.length_append, List.length_replicate]; omega
      · intro j hj
        rw [List.getD_eq_getElem?_getD, List.getElem?_append]
        split_ifs with h
        · rw [← List.getD_eq_getElem?_getD, ← rd_getD (m := m3) (a := x) h, i3.hx]
        · rw [i3.zero j (by omega) hj, List.getElem?_replicate]
          split_ifs <;> rfl
    · rw [List.length_append, List.length_replicate]; omega
  · right
    rw [valloc_gt (by omega), alloc_gt (by omega)]
    exact ⟨rfl, rfl⟩

end Mem
end Verif
