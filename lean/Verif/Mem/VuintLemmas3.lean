import Verif.Mem.VuintLemmas2

/-! Helper lemmas: multiplication on objects. -/

namespace Verif
namespace Mem

theorem rd_wr_mid {m : ℕ → ℕ} {a i N : ℕ} {l : List ℕ} (h : i + l.length ≤ N) :
    rd (wr m (a + i) l) a N = (rd m a N).take i ++ l ++ (rd m a N).drop (i + l.length) := by
  obtain ⟨k, rfl⟩ := Nat.exists_eq_add_of_le h
  rw [rd_append, rd_append, rd_wr, rd_take (by omega), rd_drop, Nat.add_sub_cancel_left]
  congr 1
  · congr 1
    exact rd_congr fun j h1 h2 => wr_outside (by omega)
  · exact rd_congr fun j h1 h2 => wr_outside (by omega)

theorem rd_wr_out {m : ℕ → ℕ} {a b n : ℕ} {l : List ℕ} (h : a + n ≤ b ∨ b + l.length ≤ a) : rd (wr m b l) a n = rd m a n :=
  rd_congr fun j h1 h2 => wr_outside (by omega)

theorem mulStep_mem {m : ℕ → ℕ} {out x xn y t2 i N : ℕ} (hN : i + (xn + 1) ≤ N)
    (tout : out + N ≤ t2) (tx : x + xn ≤ t2) :
    rd (mulStep out x xn y t2 m i) out N = (rd m out N).take i ++
      (Verif.addN (((rd m out N).drop i).take (xn + 1)) (Verif.mul1 (rd m x xn) (m (y + i)))).1 ++ (rd m out N).drop (i + (xn + 1)) ∧
    ∀ j, (j < out ∨ out + N ≤ j) → j < t2 → mulStep out x xn y t2 m i j = m j := by
  unfold mulStep
  dsimp only
  rw [mul1_spec (Or.inr tx), addN_spec (Or.inl le_rfl) (Or.inl (by omega))]
  dsimp only
  have hl : (mul1Loop (rd m x xn) (m (y + i)) 0).length = xn + 1 := by rw [length_mul1Loop, length_rd]
  have e1 : rd (wr m t2 (mul1Loop (rd m x xn) (m (y + i)) 0)) t2 (xn + 1) = Verif.mul1 (rd m x xn) (m (y + i)) := by
    have := rd_wr (m := m) (a := t2) (l := mul1Loop (rd m x xn) (m (y + i)) 0)
    rw [hl] at this
    exact this
  have e2 : rd (wr m t2 (mul1Loop (rd m x xn) (m (y + i)) 0)) (out + i) (xn + 1) = ((rd m out N).drop i).take (xn + 1) := by
    rw [rd_wr_out (by omega), rd_drop, rd_take (by omega)]
  rw [e1, e2]
  have hs : (addNLoop (((rd m out N).drop i).take (xn + 1)) (Verif.mul1 (rd m x xn) (m (y + i))) 0).1.length = xn + 1 := by
    have : ((rd m out N).drop i).take (xn + 1) = rd m (out + i) (xn + 1) := by rw [rd_drop, rd_take (by omega)]
    rw [this, length_addNLoop (by rw [length_rd]; exact hl.symm), length_rd]
  constructor
  · rw [rd_wr_mid (by omega), hs, rd_wr_out (by omega)]
    rfl
  · intro j h1 h2
    rw [wr_outside (by omega), wr_outside (by omega)]

theorem mulLoop_mem {out x xn y yn t2 N : ℕ} (hN : yn + xn ≤ N) (dx : out + N ≤ x ∨ x + xn ≤ out)
    (dy : out + N ≤ y ∨ y + yn ≤ out) (tout : out + N ≤ t2) (tx : x + xn ≤ t2) (ty : y + yn ≤ t2) : ∀ (k i : ℕ) (m : ℕ → ℕ), i + k ≤ yn →
    rd ((List.range' i k).foldl (mulStep out x xn y t2) m) out N =
      Vuint.mulLoop (rd m x xn) (rd m (y + i) k) i (rd m out N) ∧
    ∀ j, (j < out ∨ out + N ≤ j) → j < t2 → (List.range' i k).foldl (mulStep out x xn y t2) m j = m j := by
  intro k
  induction k with
  | zero => intros; exact ⟨rfl, fun _ _ _ => rfl⟩
  | succ k ih =>
    intro i m hi
    obtain ⟨a1, a2⟩ := mulStep_mem (m := m) (y := y) (i := i) (by omega) tout tx
    obtain ⟨b1, b2⟩ := ih (i + 1) (mulStep out x xn y t2 m i) (by omega)
    rw [List.range'_succ, List.foldl_cons]
    refine ⟨?_, fun j h1 h2 => (b2 j h1 h2).trans (a2 j h1 h2)⟩
    have ex : rd (mulStep out x xn y t2 m i) x xn = rd m x xn := rd_congr fun j h1 h2 => a2 j (by omega) (by omega)
    have ey : rd (mulStep out x xn y t2 m i) (y + (i + 1)) k = rd m (y + (i + 1)) k :=
      rd_congr fun j h1 h2 => a2 j (by omega) (by omega)
    rw [b1, a1, ex, ey, rd, Vuint.mulLoop]
    rw [length_rd, Nat.add_assoc]

/-- the raw `mul` with the longer operand first -/
def vmulOrd (x y : List ℕ) : List ℕ :=
  Vuint.mulLoop x y.tail 1 (Verif.mul1 x (y.getD 0 0) ++ List.replicate (y.length - 1) 0)

theorem vmulRaw_eq {x y : List ℕ} (hx : 0 < x.length) (hy : 0 < y.length) :
    Vuint.mulRaw x y = if y.length > x.length then vmulOrd y x else vmulOrd x y := by
  unfold Vuint.mulRaw
  split_ifs with h
  · cases x with
    | nil => simp at hx
    | cons a x => rfl
  · cases y with
    | nil => simp at hy
    | cons a y => rfl

theorem mulRaw_eq (m : ℕ → ℕ) (out x xn y yn t2 : ℕ) : mulRaw m out x xn y yn t2 =
    if yn > xn then (List.range' 1 (xn - 1)).foldl (mulStep out y yn x t2)
        (mul1 yn (fill m (out + (yn + 1)) (xn - 1)) 0 out y (fill m (out + (yn + 1)) (xn - 1) x))
    else (List.range' 1 (yn - 1)).foldl (mulStep out x xn y t2)
        (mul1 xn (fill m (out + (xn + 1)) (yn - 1)) 0 out x (fill m (out + (xn + 1)) (yn - 1) y)) := by
  have h : ∀ (k : ℕ) (f : (ℕ → ℕ) → ℕ → (ℕ → ℕ)) (s : ℕ → ℕ),
      (List.range k).foldl (fun m i => f m (i + 1)) s = (List.range' 1 k).foldl f s := by
    intro k f s
    rw [List.range'_eq_map_range, List.foldl_map]
    simp only [Nat.add_comm 1]
  unfold mulRaw
  dsimp only
  by_cases hc : yn > xn
  · simp only [if_pos hc]
    exact h ..
  · simp only [if_neg hc]
    exact h ..

theorem mulOrd_mem {m : ℕ → ℕ} {out x xn y yn t2 : ℕ} (hy : 0 < yn) (dx : out + (xn + yn) ≤ x ∨ x + xn ≤ out)
    (dy : out + (xn + yn) ≤ y ∨ y + yn ≤ out) (tout : out + (xn + yn) ≤ t2) (tx : x + xn ≤ t2) (ty : y + yn ≤ t2) :
    rd ((List.range' 1 (yn - 1)).foldl (mulStep out x xn y t2)
        (mul1 xn (fill m (out + (xn + 1)) (yn - 1)) 0 out x (fill m (out + (xn + 1)) (yn - 1) y))) out (xn + yn) =
      vmulOrd (rd m x xn) (rd m y yn) ∧
    ∀ j, (j < out ∨ out + (xn + yn) ≤ j) → j < t2 → (List.range' 1 (yn - 1)).foldl (mulStep out x xn y t2)
        (mul1 xn (fill m (out + (xn + 1)) (yn - 1)) 0 out x (fill m (out + (xn + 1)) (yn - 1) y)) j = m j := by
  obtain ⟨k, rfl⟩ : ∃ k, yn = k + 1 := ⟨yn - 1, by omega⟩
  rw [Nat.add_sub_cancel]
  obtain ⟨b1, b2⟩ := mulLoop_mem (out := out) (N := xn + (k + 1)) (yn := k + 1) (by omega) dx dy tout tx ty k 1
    (mul1 xn (fill m (out + (xn + 1)) k) 0 out x (fill m (out + (xn + 1)) k y)) (by omega)
  unfold fill at b1 b2 ⊢
  have hr : (List.replicate k 0 : List ℕ).length = k := List.length_replicate ..
  have e0 : wr m (out + (xn + 1)) (List.replicate k 0) y = m y := wr_outside (by omega)
  rw [e0, mul1_spec (by unfold Fwd; omega), rd_wr_out (by omega)] at b1 b2 ⊢
  have hl : (mul1Loop (rd m x xn) (m y) 0).length = xn + 1 := by rw [length_mul1Loop, length_rd]
  constructor
  · rw [b1]
    have e1 : ∀ a n, (out + (xn + (k + 1)) ≤ a ∨ a + n ≤ out) →
        rd (wr (wr m (out + (xn + 1)) (List.replicate k 0)) out (mul1Loop (rd m x xn) (m y) 0)) a n = rd m a n := by
      intro a n h
      rw [rd_wr_out (by omega), rd_wr_out (by omega)]
    have e2 : rd (wr (wr m (out + (xn + 1)) (List.replicate k 0)) out (mul1Loop (rd m x xn) (m y) 0)) out (xn + (k + 1)) =
        mul1Loop (rd m x xn) (m y) 0 ++ List.replicate k 0 := by
      rw [show xn + (k + 1) = (xn + 1) + k by omega, rd_append]
      congr 1
      · rw [← hl]; exact rd_wr
      · rw [rd_wr_out (by omega)]
        have := rd_wr (m := m) (a := out + (xn + 1)) (l := List.replicate k 0)
        rw [hr] at this
        exact this
    rw [e2, e1 _ _ dx, e1 _ _ (by omega)]
    unfold vmulOrd
    rw [length_rd, Nat.add_sub_cancel, rd_getD (by omega), rd]
    rfl
  · intro j h1 h2
    rw [b2 j h1 h2, wr_outside (by omega), wr_outside (by omega)]

theorem mulRaw_mem {m : ℕ → ℕ} {out x xn y yn t2 : ℕ} (hx : 0 < xn) (hy : 0 < yn) (dx : out + (xn + yn) ≤ x ∨ x + xn ≤ out)
    (dy : out + (xn + yn) ≤ y ∨ y + yn ≤ out) (tout : out + (xn + yn) ≤ t2) (tx : x + xn ≤ t2) (ty : y + yn ≤ t2) :
    rd (mulRaw m out x xn y yn t2) out (xn + yn) = Vuint.mulRaw (rd m x xn) (rd m y yn) ∧
    ∀ j, (j < out ∨ out + (xn + yn) ≤ j) → j < t2 → mulRaw m out x xn y yn t2 j = m j := by
  rw [mulRaw_eq, vmulRaw_eq (by rwa [length_rd]) (by rwa [length_rd]), length_rd, length_rd]
  by_cases hc : yn > xn
  · simp only [if_pos hc]
    have := mulOrd_mem (m := m) (out := out) (x := y) (xn := yn) (y := x) (yn := xn) (t2 := t2) hx (by omega) (by omega) (by omega) ty tx
    rw [Nat.add_comm yn xn] at this
    exact this
  · simp only [if_neg hc]
    exact mulOrd_mem hy dx dy tout tx ty

theorem length_vmulRaw {m : ℕ → ℕ} {x xn y yn : ℕ} (hx : 0 < xn) (hy : 0 < yn) :
    (Vuint.mulRaw (rd m x xn) (rd m y yn)).length = xn + yn := by
  have := (mulRaw_mem (m := Function.update m 0 (m 0)) (out := x + xn + (y + yn)) (x := x) (xn := xn) (y := y) (yn := yn)
    (t2 := x + xn + (y + yn) + (xn + yn)) hx hy (by omega) (by omega) (by omega) (by omega) (by omega)).1
  rw [Function.update_eq_self] at this
  rw [← this, length_rd]

/-- nothing below sp but the object at o differs -/
def FrameS (sp : ℕ) (m m' : ℕ → ℕ) (o : ℕ) : Prop := ∀ i, i < sp → (i < o ∨ o + 10 ≤ i) → m' i = m i

/-- as `Impl`, for routines with locals from sp on -/
def ImplS (sp : ℕ) (m : ℕ → ℕ) (o : ℕ) (r : Res (List ℕ)) (run : Res (ℕ → ℕ)) : Prop :=
  (∃ z m', r = .ok z ∧ run = .ok m' ∧ obj m' o = z ∧ FrameS sp m m' o) ∨ (r = .exit ∧ run = .exit) ∨ (r = .ub ∧ run = .ub)

theorem set1_out {m : ℕ → ℕ} {o w i : ℕ} (h : i < o ∨ o + 10 ≤ i) : set1 m o w i = m i := by
  unfold set1
  rw [Function.update_of_ne (by omega), Function.update_of_ne (by omega)]

theorem obj_congr {m m' : ℕ → ℕ} {x : ℕ} (h9 : m (x + 9) ≤ 9) (h : ∀ i, x ≤ i → i < x + 10 → m' i = m i) : obj m' x = obj m x := by
  unfold obj size
  rw [h (x + 9) (by omega) (by omega)]
  exact rd_congr fun i h1 h2 => h i h1 (by omega)

/-- the second half of `mul`, with the operands in place -/
theorem mulTail {sp : ℕ} {m m' : ℕ → ℕ} {o px py xn yn : ℕ} {X Y : List ℕ} (hx0 : 0 < xn) (hy0 : 0 < yn)
    (hX : rd m' px xn = X) (hY : rd m' py yn = Y) (ho : o + 10 ≤ sp)
    (dx : o + 10 ≤ px ∨ px + 10 ≤ o) (dy : o + 10 ≤ py ∨ py + 10 ≤ o) (hx9 : xn ≤ 9) (hy9 : yn ≤ 9)
    (tx : px + 10 ≤ sp + 20) (ty : py + 10 ≤ sp + 20) (hf : ∀ i, i < sp → m' i = m i) :
    ImplS sp m o (Vuint.mul X Y) (do
      let m ← alloc m' o (xn + yn)
      trim (mulRaw m o px xn py yn (sp + 20)) o) := by
  have lx : X.length = xn := by rw [← hX, length_rd]
  have ly : Y.length = yn := by rw [← hY, length_rd]
  unfold Vuint.mul
  rw [lx, ly]
  by_cases h : xn + yn ≤ 9
  · rw [valloc_le h, alloc_le h, Res.bind_ok, Res.bind_ok]
    obtain ⟨a1, a2⟩ := mulRaw_mem (m := Function.update m' (o + 9) (xn + yn)) (out := o) (x := px) (y := py) (t2 := sp + 20)
      hx0 hy0 (by omega) (by omega) (by omega) (by omega) (by omega)
    rw [rd_update (by omega), rd_update (by omega), hX, hY] at a1
    have hl : (Vuint.mulRaw X Y).length = xn + yn := by
      rw [← hX, ← hY]
      exact length_vmulRaw hx0 hy0
    have hobj : obj (mulRaw (Function.update m' (o + 9) (xn + yn)) o px xn py yn (sp + 20)) o = Vuint.mulRaw X Y := by
      unfold obj size
      rw [a2 _ (by omega) (by omega), Function.update_self, a1]
    obtain ⟨t1, t2⟩ := trim_mem hobj (by omega) (by omega)
    refine Or.inl ⟨_, _, rfl, t1, t2, ?_⟩
    intro i hi hio
    rw [Function.update_of_ne (by omega), a2 _ (by omega) (by omega), Function.update_of_ne (by omega), hf i hi]
  · rw [valloc_gt (by omega), alloc_gt (by omega)]
    exact Or.inr (Or.inl ⟨rfl, rfl⟩)

theorem mul_mem {sp : ℕ} {m : ℕ → ℕ} {o x y : ℕ} (hx : WF (obj m x)) (hy : WF (obj m y)) (ax : Apart o x) (ay : Apart o y)
    (so : o + 10 ≤ sp) (sx : x + 10 ≤ sp) (sy : y + 10 ≤ sp) :
    ImplS sp m o (Vuint.mul (obj m x) (obj m y)) (mul sp m o x y) := by
  have hx9 : size m x ≤ 9 := by have := hx.len; rwa [length_obj] at this
  have hx0 : 0 < size m x := by have := hx.pos; rwa [length_obj] at this
  have hy9 : size m y ≤ 9 := by have := hy.len; rwa [length_obj] at this
  have hy0 : 0 < size m y := by have := hy.pos; rwa [length_obj] at this
  have hm1 : ∀ i, i < sp → set1 (set1 m sp 0) (sp + 10) 0 i = m i := by
    intro i hi
    rw [set1_out (by omega), set1_out (by omega)]
  unfold mul
  dsimp only
  generalize set1 (set1 m sp 0) (sp + 10) 0 = m1 at hm1
  have eobj : ∀ a, a + 10 ≤ sp → size m a ≤ 9 → obj m1 a = obj m a := fun a h h9 => obj_congr h9 fun i h1 h2 => hm1 i (by omega)
  have esz : ∀ a, a + 10 ≤ sp → size m1 a = size m a := fun a h => hm1 _ (by omega)
  have erd : ∀ a, a + 10 ≤ sp → size m a ≤ 9 → rd m1 a (size m a) = obj m a := by
    intro a h h9
    rw [← eobj a h h9, ← esz a h]
    rfl
  have cp : ∀ (m2 : ℕ → ℕ) (a b : ℕ), size m b ≤ 9 → (∀ i, i < sp → m2 i = m i) → b + 10 ≤ sp → sp ≤ a →
      rd (copy m2 a b) a (size m b) = obj m b ∧ ∀ i, (i < a ∨ a + 10 ≤ i) → copy m2 a b i = m2 i := by
    intro m2 a b h9 h2 hb ha
    have hs : size m2 b = size m b := h2 _ (by omega)
    obtain ⟨c1, c2⟩ := copy_obj (m := m2) (o := a) (x := b) (by omega) (Or.inr (Or.inr (by omega)))
    have hsz : size (copy m2 a b) a = size m b := by
      have := congrArg List.length c1
      rw [length_obj, length_obj] at this
      exact this.trans hs
    refine ⟨?_, c2⟩
    rw [← hsz]
    exact c1.trans (obj_congr h9 fun i h1 h2' => h2 i (by omega))
  unfold Apart at ax ay
  by_cases hox : o = x
  · simp only [if_pos hox]
    obtain ⟨c1, c2⟩ := cp m1 sp x hx9 hm1 sx le_rfl
    have hm2 : ∀ i, i < sp → copy m1 sp x i = m i := fun i hi => (c2 i (Or.inl hi)).trans (hm1 i hi)
    by_cases hoy : o = y
    · have hxy : x = y := hox.symm.trans hoy
      subst hxy
      simp only [if_pos hoy, if_true]
      exact mulTail hx0 hy0 c1 c1 so (by omega) (by omega) hx9 hy9 (by omega) (by omega) hm2
    · simp only [if_neg hoy]
      refine mulTail hx0 hy0 c1 ?_ so (by omega) (by omega) hx9 hy9 (by omega) (by omega) hm2
      have : rd (copy m1 sp x) y (size m y) = rd m1 y (size m y) := rd_congr fun i h1 h2 => c2 i (Or.inl (by omega))
      rw [this, erd y sy hy9]
  · simp only [if_neg hox]
    by_cases hoy : o = y
    · have hxy : ¬ x = y := fun h => hox (hoy.trans h.symm)
      simp only [if_pos hoy, if_neg hxy]
      obtain ⟨c1, c2⟩ := cp m1 (sp + 10) y hy9 hm1 sy (by omega)
      have hm2 : ∀ i, i < sp → copy m1 (sp + 10) y i = m i := fun i hi => (c2 i (Or.inl (by omega))).trans (hm1 i hi)
      refine mulTail hx0 hy0 ?_ c1 so (by omega) (by omega) hx9 hy9 (by omega) (by omega) hm2
      have : rd (copy m1 (sp + 10) y) x (size m x) = rd m1 x (size m x) := rd_congr fun i h1 h2 => c2 i (Or.inl (by omega))
      rw [this, erd x sx hx9]
    · simp only [if_neg hoy]
      exact mulTail hx0 hy0 (erd x sx hx9) (erd y sy hy9) so (by omega) (by omega) hx9 hy9 (by omega) (by omega) hm1

end Mem
end Verif
