import Verif.Mem.Vuint
import Verif.Vuint.Lemmas
import Verif.Vuint.Spec

/-! Helper lemmas: the object-level routines compute the value-level ones. -/

namespace Verif
namespace Mem

theorem rd_getElem? (m : ℕ → ℕ) (a n j : ℕ) : (rd m a n)[j]? = if j < n then some (m (a + j)) else none := by
  induction n generalizing a j with
  | zero => rfl
  | succ n ih =>
    unfold rd
    cases j with
    | zero => simp
    | succ j => rw [List.getElem?_cons_succ, ih]; simp [Nat.add_assoc, Nat.add_comm 1 j]

theorem rd_getD {m : ℕ → ℕ} {a n j : ℕ} (h : j < n) : (rd m a n).getD j 0 = m (a + j) := by
  rw [List.getD_eq_getElem?_getD, rd_getElem?, if_pos h]; rfl

theorem rd_eq {m : ℕ → ℕ} {a n : ℕ} {l : List ℕ} (hl : l.length = n) (h : ∀ j, j < n → m (a + j) = l.getD j 0) : rd m a n = l := by
  apply List.ext_getElem?
  intro j
  rw [rd_getElem?]
  split_ifs with hj
  · rw [h j hj, List.getD_eq_getElem?_getD, List.getElem?_eq_getElem (by omega)]; rfl
  · rw [List.getElem?_eq_none (by omega)]

theorem rd_take {m : ℕ → ℕ} {a n k : ℕ} (h : k ≤ n) : (rd m a n).take k = rd m a k := by
  apply List.ext_getElem?
  intro j
  rw [List.getElem?_take, rd_getElem?, rd_getElem?]
  split_ifs <;> first | rfl | omega

theorem rd_drop {m : ℕ → ℕ} {a n k : ℕ} : (rd m a n).drop k = rd m (a + k) (n - k) := by
  apply List.ext_getElem?
  intro j
  rw [List.getElem?_drop, rd_getElem?, rd_getElem?, Nat.add_assoc]
  split_ifs <;> first | rfl | omega

theorem rd_append (m : ℕ → ℕ) (a n k : ℕ) : rd m a (n + k) = rd m a n ++ rd m (a + n) k := by
  rw [← List.take_append_drop n (rd m a (n + k)), rd_take (by omega), rd_drop, Nat.add_sub_cancel_left]

/-- nothing but the object at o differs -/
def Frame (m m' : ℕ → ℕ) (o : ℕ) : Prop := ∀ i, (i < o ∨ o + 10 ≤ i) → m' i = m i

/-- the same object, or no word in common -/
def Apart (o x : ℕ) : Prop := o = x ∨ o + 10 ≤ x ∨ x + 10 ≤ o

theorem length_obj (m : ℕ → ℕ) (a : ℕ) : (obj m a).length = m (a + 9) := length_rd ..

/-- the run leaves the value-level result in the object at o and changes nothing else, or ends as the value level does -/
def Impl (m : ℕ → ℕ) (o : ℕ) (r : Res (List ℕ)) (run : Res (ℕ → ℕ)) : Prop :=
  (∃ z m', r = .ok z ∧ run = .ok m' ∧ obj m' o = z ∧ Frame m m' o) ∨ (r = .exit ∧ run = .exit) ∨ (r = .ub ∧ run = .ub)

theorem obj_wr {m : ℕ → ℕ} {o : ℕ} {l : List ℕ} (h9 : l.length ≤ 9) (hs : m (o + 9) = l.length) : obj (wr m o l) o = l := by
  unfold obj size
  rw [wr_outside (by omega), hs, rd_wr]

theorem frame_wr {m : ℕ → ℕ} {o n : ℕ} {l : List ℕ} (h9 : l.length ≤ 9) : Frame m (wr (Function.update m (o + 9) n) o l) o := by
  intro i hi
  rw [wr_outside (by omega), Function.update_of_ne (by omega)]

theorem top_eq {m : ℕ → ℕ} {a i n : ℕ} (h1 : i ≤ n) (h2 : ∀ j, i < j → j ≤ n → m (a + j) = 0) (h3 : i = 0 ∨ m (a + i) ≠ 0) :
    top m a n = i := by
  induction n with
  | zero => unfold top; omega
  | succ n ih =>
    unfold top
    by_cases h : i = n + 1
    · subst h
      rw [if_pos (by omega)]
    · rw [if_neg (by rw [not_not]; exact h2 _ (by omega) le_rfl)]
      exact ih (by omega) fun j h4 h5 => h2 j h4 (by omega)

theorem trim_mem {m : ℕ → ℕ} {o : ℕ} {l : List ℕ} (hl : obj m o = l) (h0 : 0 < l.length) (h9 : l.length ≤ 9) :
    trim m o = .ok (Function.update m (o + 9) (Vuint.trim l).length) ∧
    obj (Function.update m (o + 9) (Vuint.trim l).length) o = Vuint.trim l := by
  obtain ⟨k, hk, htop, hpos⟩ := Vuint.trim_spec l h0
  have hlen : (Vuint.trim l).length + k = l.length := by
    conv_rhs => rw [hk]
    rw [List.length_append, List.length_replicate]
  have hs : m (o + 9) = l.length := by rw [← hl, length_obj]
  have hg : ∀ j, j < l.length → m (o + j) = l.getD j 0 := fun j hj => by
    rw [← hl]; exact (rd_getD (by rw [← hl, length_obj] at hj; exact hj)).symm
  have ht : top m o (size m o - 1) = (Vuint.trim l).length - 1 := by
    unfold size
    rw [hs]
    apply top_eq (by omega)
    · intro j h1 h2
      rw [hg j (by omega), hk, List.getD_eq_getElem?_getD, List.getElem?_append_right (by omega)]
      rw [List.getElem?_replicate]
      split_ifs <;> rfl
    · by_cases h1 : (Vuint.trim l).length = 1
      · left; omega
      · right
        have h2 := htop.resolve_left h1
        rw [hg _ (by omega), hk, List.getD_eq_getElem?_getD, List.getElem?_append_left (by rw [← hk]; omega)]
        rw [← hk]
        rw [List.getLast?_eq_getElem?, List.getElem?_eq_getElem (by omega)] at h2
        rw [List.getElem?_eq_getElem (by omega)]
        simpa using h2
  constructor
  · unfold trim alloc
    dsimp only
    rw [ht, if_neg (by split_ifs <;> omega)]
    congr 2
    split_ifs <;> omega
  · unfold obj size
    rw [Function.update_self, rd_update (by omega)]
    apply rd_eq rfl
    intro j hj
    rw [hg j (by omega)]
    conv_lhs => rw [hk]
    rw [List.getD_eq_getElem?_getD, List.getElem?_append_left hj, List.getD_eq_getElem?_getD]

theorem frame_update {m m' : ℕ → ℕ} {o j v : ℕ} (h : Frame m m' o) (hj : j < 10) : Frame m (Function.update m' (o + j) v) o := by
  intro i hi
  rw [Function.update_of_ne (by omega)]
  exact h i hi

/-- trimming at the end of a routine -/
theorem impl_trim {m m' : ℕ → ℕ} {o : ℕ} {l : List ℕ} (hl : obj m' o = l) (h0 : 0 < l.length) (h9 : l.length ≤ 9)
    (hf : Frame m m' o) : Impl m o (.ok (Vuint.trim l)) (trim m' o) := by
  obtain ⟨h1, h2⟩ := trim_mem hl h0 h9
  exact Or.inl ⟨_, _, rfl, h1, h2, frame_update hf (by norm_num)⟩

/-- appending a top word -/
theorem impl_top {m m' : ℕ → ℕ} {o w : ℕ} {l : List ℕ} (hl : obj m' o = l) (h9 : l.length ≤ 9) (hf : Frame m m' o) :
    Impl m o (do Vuint.alloc (l.length + 1); pure (l ++ [w]))
      (do let m ← alloc m' o (l.length + 1); .ok (Function.update m (o + l.length) w)) := by
  unfold Vuint.alloc alloc cap
  by_cases h : l.length + 1 > 9
  · rw [if_pos h, if_pos h]
    exact Or.inr (Or.inl ⟨rfl, rfl⟩)
  · rw [if_neg h, if_neg h]
    refine Or.inl ⟨_, _, rfl, rfl, ?_, frame_update (frame_update hf (by norm_num)) (by omega)⟩
    have hs : m' (o + 9) = l.length := by rw [← hl, length_obj]
    unfold obj size
    rw [Function.update_of_ne (by omega), Function.update_self, rd_succ', Function.update_self, rd_update (by omega),
      rd_update (by omega), ← hs]
    congr 1

theorem length_addNLoop {x y : List ℕ} {c : ℕ} (h : x.length = y.length) : (addNLoop x y c).1.length = x.length := by
  induction x generalizing y c with
  | nil => cases y <;> rfl
  | cons a x ih =>
    cases y with
    | nil => simp at h
    | cons b y =>
      have h' : x.length = y.length := by simpa using h
      unfold addNLoop
      dsimp only
      split_ifs <;> simp [ih h']

theorem length_subNLoop {x y : List ℕ} {c : ℕ} (h : x.length = y.length) : (subNLoop x y c).1.length = x.length := by
  induction x generalizing y c with
  | nil => cases y <;> rfl
  | cons a x ih =>
    cases y with
    | nil => simp at h
    | cons b y =>
      have h' : x.length = y.length := by simpa using h
      unfold subNLoop
      dsimp only
      split_ifs <;> simp [ih h']

theorem length_add1Loop {x : List ℕ} {c : ℕ} : (Verif.add1Loop x c).1.length = x.length := by
  induction x generalizing c with
  | nil => rfl
  | cons a x ih => unfold Verif.add1Loop; dsimp only; split_ifs <;> simp [ih]

theorem length_add1 {x : List ℕ} {c : ℕ} : (Verif.add1 x c).1.length = x.length := by
  cases x with
  | nil => rfl
  | cons a x => unfold Verif.add1; simp [length_add1Loop]

theorem length_sub1Loop {x : List ℕ} {c : ℕ} : (Verif.sub1Loop x c).1.length = x.length := by
  induction x generalizing c with
  | nil => rfl
  | cons a x ih => unfold Verif.sub1Loop; dsimp only; split_ifs <;> simp [ih]

theorem length_sub1 {x : List ℕ} {c : ℕ} : (Verif.sub1 x c).1.length = x.length := by
  cases x with
  | nil => rfl
  | cons a x => unfold Verif.sub1; simp [length_sub1Loop]

theorem length_mul1Loop {x : List ℕ} {y H : ℕ} : (mul1Loop x y H).length = x.length + 1 := by
  induction x generalizing H with
  | nil => rfl
  | cons a x ih => unfold mul1Loop; dsimp only; rw [List.length_cons, ih, List.length_cons]

/-- the two calls of `add_in` (px the longer operand) -/
theorem addIn_mem {m : ℕ → ℕ} {o px py n k : ℕ} (hk : k ≤ n) (hn : n ≤ 9) (ax : Apart o px) (ay : Apart o py) :
    ∃ l c, l.length = n ∧
      (let s := addN k (Function.update m (o + 9) n) 0 o px py
       if n > k then add1 (n - k - 1) s.1 (o + k) (px + k) s.2 else s) = (wr (Function.update m (o + 9) n) o l, c) ∧
      (let lo := Verif.addN (rd m px k) (rd m py k)
       (if n > k then
          let hi := Verif.add1 (rd m (px + k) (n - k)) lo.2
          pure (lo.1 ++ hi.1, hi.2)
        else pure lo : Res (List ℕ × ℕ))) = .ok (l, c) := by
  unfold Apart at ax ay
  dsimp only
  rw [addN_spec (by unfold Fwd; omega) (by unfold Fwd; omega), rd_update (by omega), rd_update (by omega)]
  have e : Verif.addN (rd m px k) (rd m py k) = addNLoop (rd m px k) (rd m py k) 0 := rfl
  rw [e]
  have hl : (addNLoop (rd m px k) (rd m py k) 0).1.length = k := by
    rw [length_addNLoop (by rw [length_rd, length_rd]), length_rd]
  by_cases h : n > k
  · rw [if_pos h, if_pos h, add1_spec (by unfold Fwd; omega), show n - k - 1 + 1 = n - k by omega]
    have e2 : rd (wr (Function.update m (o + 9) n) o (addNLoop (rd m px k) (rd m py k) 0).1) (px + k) (n - k) =
        rd m (px + k) (n - k) := rd_congr fun i h1 h2 => by
      rw [wr_outside (by omega), Function.update_of_ne (by omega)]
    rw [e2]
    refine ⟨_, _, ?_, ?_, rfl⟩
    · rw [List.length_append, hl, length_add1, length_rd]; omega
    · rw [wr_append, hl]
  · rw [if_neg h, if_neg h]
    exact ⟨_, _, by omega, rfl, rfl⟩

theorem alloc_le {m : ℕ → ℕ} {o n : ℕ} (h : n ≤ 9) : alloc m o n = .ok (Function.update m (o + 9) n) := if_neg (by omega)
theorem alloc_gt {m : ℕ → ℕ} {o n : ℕ} (h : 9 < n) : alloc m o n = .exit := if_pos h
theorem valloc_le {n : ℕ} (h : n ≤ 9) : Vuint.alloc n = .ok () := if_neg (by unfold cap; omega)
theorem valloc_gt {n : ℕ} (h : 9 < n) : Vuint.alloc n = .exit := if_pos h

/-- `Vuint.add` with the operands in order -/
def vaddOrd (x y : List ℕ) : Res (List ℕ) := do
  Vuint.alloc x.length
  let r ← (let lo := Verif.addN (x.take y.length) y
    if x.length > y.length then
      let hi := Verif.add1 (x.drop y.length) lo.2
      pure (lo.1 ++ hi.1, hi.2)
    else pure lo : Res (List ℕ × ℕ))
  if r.2 ≠ 0 then
    Vuint.alloc (r.1.length + 1)
    pure (r.1 ++ [1])
  else
    pure (Vuint.trim r.1)

theorem vadd_eq (x y : List ℕ) : Vuint.add x y = if y.length > x.length then vaddOrd y x else vaddOrd x y := by
  unfold Vuint.add Vuint.addIn vaddOrd
  by_cases h : y.length > x.length
  · rw [if_pos h, if_pos h]
    dsimp only
    rcases Vuint.alloc y.length <;> rfl
  · rw [if_neg h, if_neg h]
    dsimp only
    rcases Vuint.alloc x.length <;> rfl

theorem addOrd_mem {m : ℕ → ℕ} {o x y : ℕ} (hx : WF (obj m x)) (hle : size m y ≤ size m x)
    (ax : Apart o x) (ay : Apart o y) : Impl m o (vaddOrd (obj m x) (obj m y)) (addOrd m o x y) := by
  have h9 : size m x ≤ 9 := by have := hx.len; rwa [length_obj] at this
  have h0 : 0 < size m x := by have := hx.pos; rwa [length_obj] at this
  obtain ⟨l, c, hl, e1, e2⟩ := addIn_mem hle h9 ax ay
  unfold vaddOrd addOrd
  have ex : (obj m x).length = size m x := length_obj ..
  have ey : (obj m y).length = size m y := length_obj ..
  dsimp only at e1 e2 ⊢
  rw [ex, ey, show (obj m x).take (size m y) = rd m x (size m y) from rd_take hle,
    show (obj m x).drop (size m y) = rd m (x + size m y) (size m x - size m y) from rd_drop,
    show obj m y = rd m y (size m y) from rfl, e2, valloc_le h9, alloc_le h9, Res.bind_ok, Res.bind_ok, Res.bind_ok, e1]
  have ho : obj (wr (Function.update m (o + 9) (size m x)) o l) o = l := obj_wr (by omega) (by rw [Function.update_self, hl])
  have hf : Frame m (wr (Function.update m (o + 9) (size m x)) o l) o := frame_wr (by omega)
  have hs : size (wr (Function.update m (o + 9) (size m x)) o l) o = l.length := by
    rw [show size (wr (Function.update m (o + 9) (size m x)) o l) o = (obj (wr (Function.update m (o + 9) (size m x)) o l) o).length
      from (length_obj ..).symm, ho]
  dsimp only
  split_ifs with hc
  · have := impl_top (w := 1) ho (by omega) hf
    rw [hs]
    unfold alloc at this ⊢
    by_cases h : l.length + 1 > 9
    · rw [if_pos h] at this ⊢; exact this
    · rw [if_neg h] at this ⊢
      rw [Res.bind_ok] at this ⊢
      unfold size
      rw [Function.update_self, Nat.add_sub_cancel]
      exact this
  · exact impl_trim ho (by omega) (by omega) hf

theorem add_mem {m : ℕ → ℕ} {o x y : ℕ} (hx : WF (obj m x)) (hy : WF (obj m y)) (ax : Apart o x) (ay : Apart o y) :
    Impl m o (Vuint.add (obj m x) (obj m y)) (add m o x y) := by
  unfold add
  rw [vadd_eq, length_obj, length_obj]
  by_cases h : size m y > size m x
  · rw [if_pos h, if_pos (show m (y + 9) > m (x + 9) from h)]
    exact addOrd_mem hy (by omega) ay ax
  · rw [if_neg h, if_neg (show ¬ m (y + 9) > m (x + 9) from h)]
    exact addOrd_mem hx (by omega) ax ay

theorem add32_mem {m : ℕ → ℕ} {o x y : ℕ} (hx : WF (obj m x)) (ax : Apart o x) :
    Impl m o (Vuint.add32 (obj m x) y) (add32 m o x y) := by
  have h9 : size m x ≤ 9 := by have := hx.len; rwa [length_obj] at this
  have h0 : 0 < size m x := by have := hx.pos; rwa [length_obj] at this
  unfold Apart at ax
  unfold Vuint.add32 add32
  have ex : (obj m x).length = size m x := length_obj ..
  have e : Verif.add1 (rd (Function.update m (o + 9) (size m x)) x (size m x)) y = Verif.add1 (obj m x) y := by
    rw [rd_update (by omega)]; rfl
  dsimp only
  rw [ex, valloc_le h9, alloc_le h9, Res.bind_ok, Res.bind_ok, add1_spec (by unfold Fwd; omega), Nat.sub_add_cancel h0, e]
  have hl : (Verif.add1 (obj m x) y).1.length = size m x := by rw [length_add1, ex]
  have ho : obj (wr (Function.update m (o + 9) (size m x)) o (Verif.add1 (obj m x) y).1) o = (Verif.add1 (obj m x) y).1 :=
    obj_wr (by omega) (by rw [Function.update_self, hl])
  have hf : Frame m (wr (Function.update m (o + 9) (size m x)) o (Verif.add1 (obj m x) y).1) o := frame_wr (by omega)
  split_ifs with hc
  · have := impl_top (w := 1) ho (by omega) hf
    rw [hl] at this
    exact this
  · exact Or.inl ⟨_, _, rfl, rfl, ho, hf⟩

theorem sub_mem {m : ℕ → ℕ} {o x y : ℕ} (hx : WF (obj m x)) (ax : Apart o x) (ay : Apart o y) :
    Impl m o (Vuint.sub (obj m x) (obj m y)) (sub m o x y) := by
  have h9 : size m x ≤ 9 := by have := hx.len; rwa [length_obj] at this
  have h0 : 0 < size m x := by have := hx.pos; rwa [length_obj] at this
  have ex : (obj m x).length = size m x := length_obj ..
  have ey : (obj m y).length = size m y := length_obj ..
  unfold Apart at ax ay
  unfold Vuint.sub Vuint.subIn sub
  dsimp only
  rw [ex, ey]
  by_cases hlt : size m x < size m y
  · rw [if_pos hlt, if_pos hlt]
    exact Or.inr (Or.inr ⟨rfl, rfl⟩)
  rw [if_neg hlt, if_neg hlt, valloc_le h9, alloc_le h9, Res.bind_ok, Res.bind_ok,
    show (obj m x).take (size m y) = rd m x (size m y) from rd_take (by omega),
    show (obj m x).drop (size m y) = rd m (x + size m y) (size m x - size m y) from rd_drop,
    show obj m y = rd m y (size m y) from rfl,
    subN_spec (by unfold Fwd; omega) (by unfold Fwd; omega), rd_update (by omega), rd_update (by omega),
    show Verif.subN (rd m x (size m y)) (rd m y (size m y)) = subNLoop (rd m x (size m y)) (rd m y (size m y)) 0 from rfl]
  have hl : (subNLoop (rd m x (size m y)) (rd m y (size m y)) 0).1.length = size m y := by
    rw [length_subNLoop (by rw [length_rd, length_rd]), length_rd]
  have fin : ∀ (l : List ℕ) (c : ℕ), l.length = size m x →
      Impl m o (if c ≠ 0 then .exit else .ok (Vuint.trim l))
        (if c ≠ 0 then .exit else trim (wr (Function.update m (o + 9) (size m x)) o l) o) := by
    intro l c h
    split_ifs with hc
    · exact Or.inr (Or.inl ⟨rfl, rfl⟩)
    · exact impl_trim (obj_wr (by omega) (by rw [Function.update_self, h])) (by omega) (by omega) (frame_wr (by omega))
  by_cases h : size m x > size m y
  · rw [if_pos h, if_pos h, sub1_spec (by unfold Fwd; omega), show size m x - size m y - 1 + 1 = size m x - size m y by omega]
    have e2 : rd (wr (Function.update m (o + 9) (size m x)) o (subNLoop (rd m x (size m y)) (rd m y (size m y)) 0).1)
        (x + size m y) (size m x - size m y) = rd m (x + size m y) (size m x - size m y) := rd_congr fun i h1 h2 => by
      rw [wr_outside (by omega), Function.update_of_ne (by omega)]
    rw [e2]
    have := fin ((subNLoop (rd m x (size m y)) (rd m y (size m y)) 0).1 ++
      (Verif.sub1 (rd m (x + size m y) (size m x - size m y)) (subNLoop (rd m x (size m y)) (rd m y (size m y)) 0).2).1)
      (Verif.sub1 (rd m (x + size m y) (size m x - size m y)) (subNLoop (rd m x (size m y)) (rd m y (size m y)) 0).2).2
      (by rw [List.length_append, hl, length_sub1, length_rd]; omega)
    rw [wr_append, hl] at this
    exact this
  · rw [if_neg h, if_neg h]
    exact fin _ _ (by omega)

theorem mulUnit_mem {m : ℕ → ℕ} {o x y : ℕ} (ax : Apart o x) (hx : WF (obj m x)) :
    Impl m o (Vuint.mulUnit (obj m x) y) (mulUnit m o x y) := by
  have h9 : size m x ≤ 9 := by have := hx.len; rwa [length_obj] at this
  have ex : (obj m x).length = size m x := length_obj ..
  unfold Apart at ax
  unfold Vuint.mulUnit mulUnit
  dsimp only
  rw [ex]
  by_cases h : 9 < size m x + 1
  · rw [valloc_gt h, alloc_gt h]
    exact Or.inr (Or.inl ⟨rfl, rfl⟩)
  rw [valloc_le (by omega), alloc_le (by omega), Res.bind_ok, Res.bind_ok, mul1_spec (by unfold Fwd; omega), rd_update (by omega)]
  have hl : (mul1Loop (rd m x (size m x)) y 0).length = size m x + 1 := by rw [length_mul1Loop, length_rd]
  show Impl m o (.ok (Vuint.trim (mul1Loop (rd m x (size m x)) y 0))) _
  exact impl_trim (obj_wr (by omega) (by rw [Function.update_self, hl])) (by omega) (by omega) (frame_wr (by omega))

end Mem
end Verif
