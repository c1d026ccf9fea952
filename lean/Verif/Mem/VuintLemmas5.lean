import Verif.Mem.VuintLemmas4

/-! Helper lemmas: `VuintT::div` on objects. -/

namespace Verif
namespace Mem

/-- nothing below sp but the objects of the quotient and of the remainder differs -/
def FrameQ (sp : ℕ) (m m' : ℕ → ℕ) (q : Option ℕ) (r : ℕ) : Prop :=
  ∀ i, i < sp → (i < r ∨ r + 10 ≤ i) → (∀ a, q = some a → i < a ∨ a + 10 ≤ i) → m' i = m i

theorem obj_set1 (m : ℕ → ℕ) (o w : ℕ) : obj (set1 m o w) o = Vuint.ofUnit w := by
  unfold obj size set1
  rw [Function.update_of_ne (by omega), Function.update_self, rd, rd, Function.update_self]
  rfl

theorem setO_out {m : ℕ → ℕ} {q : Option ℕ} {w i : ℕ} (h : ∀ a, q = some a → i < a ∨ a + 10 ≤ i) : setO m q w i = m i := by
  cases q with
  | none => rfl
  | some a => exact set1_out (h a rfl)

theorem fin_mem {P : Prop} [Decidable P] {m : ℕ → ℕ} {a s o : ℕ} {L : List ℕ} (hL : obj m a = L) (h0 : 0 < L.length)
    (h9 : L.length ≤ 9) (h1 : P → a = o) (h2 : ¬ P → a = s) (hd : o + 10 ≤ s) :
    ∃ m', fin P m s o = .ok m' ∧ obj m' o = Vuint.trim L ∧ ∀ j, (j < a ∨ a + 10 ≤ j) → (j < o ∨ o + 10 ≤ j) → m' j = m j := by
  obtain ⟨t1, t2⟩ := trim_mem hL h0 h9
  unfold fin
  by_cases hP : P
  · rw [if_pos hP]
    obtain rfl := h1 hP
    exact ⟨_, t1, t2, fun j h _ => Function.update_of_ne (by omega) ..⟩
  · rw [if_neg hP]
    obtain rfl := h2 hP
    rw [t1, Res.bind_ok]
    have hs : size (Function.update m (a + 9) (Vuint.trim L).length) a ≤ 9 := by
      have := (trim_len h0).2
      unfold size
      rw [Function.update_self]
      omega
    obtain ⟨c1, c2⟩ := copy_obj (o := o) (x := a) hs (Or.inr (Or.inl hd))
    refine ⟨_, rfl, c1.trans t2, fun j h3 h4 => ?_⟩
    rw [c2 j h4, Function.update_of_ne (by omega)]

/-- division by one word -/
theorem divUnit_mem {m : ℕ → ℕ} {q : Option ℕ} {x w : ℕ} (hx : WF (obj m x)) (ax : ∀ a, q = some a → Apart a x) (hw : w ≠ 0) :
    ∃ z r m', Vuint.divUnit (obj m x) w = .ok (z, r) ∧ divUnit m q x w = .ok (m', r) ∧ (∀ a, q = some a → obj m' a = z) ∧
      ∀ j, (∀ a, q = some a → j < a ∨ a + 10 ≤ j) → m' j = m j := by
  have h9 : size m x ≤ 9 := by have := hx.len; rwa [length_obj] at this
  have h0 : 0 < size m x := by have := hx.pos; rwa [length_obj] at this
  have ex : (obj m x).length = size m x := length_obj ..
  unfold Vuint.divUnit divUnit
  rw [if_neg hw, if_neg hw, ex, valloc_le h9, Res.bind_ok]
  dsimp only
  have hr : (Verif.div1 (obj m x) w).2 = Verif.mod1 (obj m x) w := by
    generalize obj m x = l
    induction l with
    | nil => rfl
    | cons a l ih => unfold Verif.div1 Verif.mod1; dsimp only; rw [ih]
  cases q with
  | none =>
    refine ⟨_, _, m, rfl, ?_, fun a h => (by cases h), fun _ _ => rfl⟩
    rw [mod1_spec, hr]
    rfl
  | some a =>
    have ha := ax a rfl
    unfold Apart at ha
    dsimp only
    rw [alloc_le h9, Res.bind_ok, div1_spec (by omega), rd_update (by omega), show rd m x (size m x) = obj m x from rfl]
    have hl : (Verif.div1 (obj m x) w).1.length = size m x := by
      rw [← div1R_zero, length_div1R, ex]
    have hobj := obj_wr (m := Function.update m (a + 9) (size m x)) (o := a) (l := (Verif.div1 (obj m x) w).1) (by omega)
      (by rw [Function.update_self, hl])
    obtain ⟨t1, t2⟩ := trim_mem hobj (by omega) (by omega)
    rw [t1, Res.bind_ok]
    refine ⟨_, _, _, rfl, rfl, ?_, ?_⟩
    · intro b hb
      cases hb
      exact t2
    · intro j hj
      have := hj a rfl
      rw [Function.update_of_ne (by omega), wr_outside (by omega), Function.update_of_ne (by omega)]

theorem div_mem {sp : ℕ} {m : ℕ → ℕ} {q : Option ℕ} {r x y : ℕ} (hx : WF (obj m x)) (hy : WF (obj m y))
    (qr : ∀ a, q = some a → a + 10 ≤ r ∨ r + 10 ≤ a) (qx : ∀ a, q = some a → Apart a x) (qy : ∀ a, q = some a → Apart a y)
    (rx : Apart r x) (ry : Apart r y) (xy : Apart x y)
    (sq : ∀ a, q = some a → a + 10 ≤ sp) (sr : r + 10 ≤ sp) (sx : x + 10 ≤ sp) (sy : y + 10 ≤ sp) :
    (Vuint.div (obj m x) (obj m y) = .ok none ∧ div sp m q r x y = .ok (m, false)) ∨
    (∃ Q R m', Vuint.div (obj m x) (obj m y) = .ok (some (Q, R)) ∧ div sp m q r x y = .ok (m', true) ∧
      (∀ a, q = some a → obj m' a = Q) ∧ obj m' r = R ∧ FrameQ sp m m' q r) ∨
    (Vuint.div (obj m x) (obj m y) = .exit ∧ div sp m q r x y = .exit) := by
  have hx9 : size m x ≤ 9 := by have := hx.len; rwa [length_obj] at this
  have hx0 : 0 < size m x := by have := hx.pos; rwa [length_obj] at this
  have hy9 : size m y ≤ 9 := by have := hy.len; rwa [length_obj] at this
  have hy0 : 0 < size m y := by have := hy.pos; rwa [length_obj] at this
  have lx : (obj m x).length = size m x := length_obj ..
  have ly : (obj m y).length = size m y := length_obj ..
  unfold Vuint.div div
  dsimp only
  rw [if_neg (show ¬ q = some r by intro h; have := qr r h; omega), ly]
  by_cases h1 : size m y = 1
  · rw [if_pos h1, if_pos h1]
    have hw : (obj m y).getD 0 0 = m y := rd_getD (m := m) (a := y) (n := size m y) (j := 0) hy0
    rw [hw]
    by_cases h2 : m y = 0
    · rw [if_pos h2, if_pos h2]
      exact Or.inl ⟨rfl, rfl⟩
    · rw [if_neg h2, if_neg h2]
      obtain ⟨z, w, m', e1, e2, e3, e4⟩ := divUnit_mem hx qx h2
      rw [e1, e2, Res.bind_ok, Res.bind_ok]
      refine Or.inr (Or.inl ⟨_, _, _, rfl, rfl, ?_, obj_set1 .., ?_⟩)
      · intro a ha
        have hz := e3 a ha
        rw [← hz]
        have h3 := qr a ha
        have hz9 : m' (a + 9) ≤ 9 := by
          have : (obj m' a).length = m' (a + 9) := length_obj ..
          rw [hz] at this
          have hd : z.length ≤ 9 := by
            unfold Vuint.divUnit at e1
            rw [if_neg h2, lx, valloc_le hx9, Res.bind_ok, Res.pure_eq, Res.ok.injEq, Prod.mk.injEq] at e1
            rw [← e1.1]
            have hl : (Verif.div1 (obj m x) (m y)).1.length = size m x := by rw [← div1R_zero, length_div1R, lx]
            have := (trim_len (l := (Verif.div1 (obj m x) (m y)).1) (by omega)).2
            omega
          omega
        exact obj_congr hz9 fun i h4 h5 => set1_out (by omega)
      · intro i h3 h4 h5
        exact (set1_out h4).trans (e4 i h5)
  rw [if_neg h1, if_neg h1, show rd m x (size m x) = obj m x from rfl, show rd m y (size m y) = obj m y from rfl]
  by_cases hc : cmp (obj m x) (obj m y) < 0
  · rw [if_pos hc, if_pos hc]
    refine Or.inr (Or.inl ⟨_, _, _, rfl, rfl, ?_, ?_, ?_⟩)
    · intro a ha
      subst ha
      exact obj_set1 ..
    · have hs : ∃ m1, (if r ≠ x then copy m r x else m) = m1 ∧ obj m1 r = obj m x := by
        refine ⟨_, rfl, ?_⟩
        split_ifs with hr
        · exact (copy_obj hx9 rx).1
        · rw [not_not.mp hr]
      obtain ⟨m1, e1, e2⟩ := hs
      rw [e1, ← e2]
      have e3 : (obj m1 r).length = m1 (r + 9) := length_obj ..
      rw [e2, lx] at e3
      exact obj_congr (by omega) fun i h2 h3 => setO_out fun a ha => by have := qr a ha; omega
    · intro i h2 h3 h4
      rw [setO_out h4]
      split_ifs with hr
      · exact (copy_obj hx9 rx).2 i h3
      · rfl
  rw [if_neg hc, if_neg hc]
  by_cases hc0 : cmp (obj m x) (obj m y) = 0
  · rw [if_pos hc0, if_pos hc0]
    refine Or.inr (Or.inl ⟨_, _, _, rfl, rfl, ?_, obj_set1 .., ?_⟩)
    · intro a ha
      have h3 := qr a ha
      subst ha
      refine Eq.trans (obj_congr (m := set1 m a 1) ?_ fun i h4 h5 => set1_out (by omega)) (obj_set1 ..)
      unfold set1
      rw [Function.update_of_ne (by omega), Function.update_self]
      norm_num
    · intro i h2 h3 h4
      rw [set1_out h3, setO_out h4]
  rw [if_neg hc0, if_neg hc0, lx]
  have hyx : size m y ≤ size m x := by
    by_contra h
    have : cmp (obj m x) (obj m y) = -1 := by
      unfold cmp
      rw [lx, ly, if_pos (by omega), if_neg (by omega)]
    omega
  have hne : x ≠ y := by
    rintro rfl
    apply hc0
    unfold cmp
    rw [if_neg (by omega)]
    have := (cmpEq_spec (obj m x) (obj m x) rfl hx.isWords hx.isWords)
    omega
  unfold Apart at rx ry xy
  rw [valloc_le (by omega), Res.bind_ok]
  -- the places used
  obtain ⟨pr, hpr⟩ : ∃ pr, pr = if r ≠ x ∧ r ≠ y then r else sp + 10 := ⟨_, rfl⟩
  rw [← hpr]
  have hpr' : (pr = r ∧ (r ≠ x ∧ r ≠ y)) ∨ (pr = sp + 10 ∧ ¬ (r ≠ x ∧ r ≠ y)) := by
    by_cases h : r ≠ x ∧ r ≠ y
    · rw [if_pos h] at hpr; exact Or.inl ⟨hpr, h⟩
    · rw [if_neg h] at hpr; exact Or.inr ⟨hpr, h⟩
  obtain ⟨pq, hpq⟩ : ∃ pq, pq = q.map fun q' => if q ≠ some x ∧ q ≠ some y then q' else sp := ⟨_, rfl⟩
  rw [← hpq]
  have hpq' : ∀ b, pq = some b → ∃ a, q = some a ∧ ((b = a ∧ (q ≠ some x ∧ q ≠ some y)) ∨ (b = sp ∧ ¬ (q ≠ some x ∧ q ≠ some y))) := by
    intro b hb
    rw [hb] at hpq
    cases q with
    | none => cases hpq
    | some a =>
      refine ⟨a, rfl, ?_⟩
      rw [Option.map_some, Option.some.injEq] at hpq
      by_cases h : some a ≠ some x ∧ some a ≠ some y
      · rw [if_pos h] at hpq; exact Or.inl ⟨hpq, h⟩
      · rw [if_neg h] at hpq; exact Or.inr ⟨hpq, h⟩
  have sep : ∀ b, pq = some b → (b + 10 ≤ x ∨ x + 10 ≤ b) ∧ (b + 10 ≤ y ∨ y + 10 ≤ b) ∧ (b + 10 ≤ pr ∨ pr + 10 ≤ b) ∧ b + 10 ≤ sp + 10 := by
    intro b hb
    obtain ⟨a, ha, h⟩ := hpq' b hb
    have h2 := qr a ha
    have h3 := qx a ha
    have h4 := qy a ha
    have h5 := sq a ha
    unfold Apart at h3 h4
    rcases h with ⟨rfl, h6, h7⟩ | ⟨rfl, -⟩
    · have : b ≠ x := fun h => h6 (h ▸ ha)
      have : b ≠ y := fun h => h7 (h ▸ ha)
      omega
    · omega
  -- preparation
  have prep : ∃ m1, allocO (set1 m sp 0) pq (size m x - size m y + 1) = .ok m1 ∧ (∀ b, pq = some b → m1 (b + 9) = size m x - size m y + 1) ∧
      ∀ i, i < sp → (∀ b, pq = some b → i < b ∨ b + 10 ≤ i) → m1 i = m i := by
    cases pq with
    | none =>
      exact ⟨_, rfl, fun b h => (by cases h), fun i h _ => set1_out (Or.inl h)⟩
    | some b =>
      refine ⟨_, alloc_le (by omega), ?_, ?_⟩
      · intro b' hb'
        cases hb'
        exact Function.update_self ..
      · intro i h2 h3
        have := h3 b rfl
        rw [Function.update_of_ne (by omega), set1_out (Or.inl h2)]
  obtain ⟨m1, e1, s1, f1⟩ := prep
  rw [e1, Res.bind_ok]
  obtain ⟨m2, hm2⟩ : ∃ m2, m2 = set1 m1 (sp + 10) 0 := ⟨_, rfl⟩
  have f2 : ∀ i, i < sp → (∀ b, pq = some b → i < b ∨ b + 10 ≤ i) → m2 i = m i := by
    intro i h2 h3
    rw [hm2, set1_out (by omega), f1 i h2 h3]
  have s2 : ∀ b, pq = some b → m2 (b + 9) = size m x - size m y + 1 := by
    intro b hb
    have := (sep b hb).2.2.2
    rw [hm2, set1_out (by omega), s1 b hb]
  have x2 : obj m2 x = obj m x := obj_congr hx9 fun i h2 h3 => f2 i (by omega) fun b hb => by have := (sep b hb).1; omega
  rw [← hm2]
  have sx2 : size m2 x = size m x := by
    have := congrArg List.length x2
    rwa [length_obj, length_obj] at this
  obtain ⟨c1, c2⟩ := copy_obj (m := m2) (o := pr) (x := x) (by omega) (by unfold Apart; omega)
  generalize copy m2 pr x = m3 at c1 c2
  rw [x2] at c1
  have spr : size m3 pr = size m x := by
    have := congrArg List.length c1
    rwa [length_obj, length_obj] at this
  have hprt : pr + 10 ≤ sp + 20 := by omega
  have y3 : rd m3 y (obj m y).length = obj m y := by
    rw [ly]
    refine rd_congr fun i h2 h3 => ?_
    rw [c2 i (by omega), f2 i (by omega) fun b hb => by have := (sep b hb).2.1; omega]
  have pl : Places pq pr y (sp + 20) :=
    ⟨by omega, fun b hb => (sep b hb).2.2.1, fun b hb => (sep b hb).2.1, fun b hb => by have := (sep b hb).2.2.2; omega, hprt, by omega⟩
  have x3 : rd m3 pr (size m x) = obj m x := by rw [← c1, ← spr]; rfl
  have main := divRaw_mem pl x3 y3 hx hy (by omega) (by omega)
  rw [ly] at main
  rcases main with ⟨Q, R, m4, d1, d2, d3, d4, d5, d6, d7⟩ | ⟨d1, d2⟩
  swap
  · rw [d1, d2]
    exact Or.inr (Or.inr ⟨rfl, rfl⟩)
  rw [d1, d2, Res.bind_ok, Res.bind_ok]
  have r4 : obj m4 pr = R := by
    have : m4 (pr + 9) = m3 (pr + 9) := d7 _ (by omega) (by omega) fun b hb => by have := (sep b hb).2.2.1; omega
    unfold obj size
    rw [this, show m3 (pr + 9) = size m x from spr, d3]
  have q4 : ∀ b, pq = some b → obj m4 b = Q := by
    intro b hb
    have h2 := (sep b hb).2.2.1
    have h3 := (sep b hb).2.2.2
    have : m4 (b + 9) = m3 (b + 9) := d7 _ (by omega) (by omega) fun b' hb' => by rw [hb] at hb'; cases hb'; omega
    unfold obj size
    rw [this, c2 _ (by omega), s2 b hb, ← d5, d6 b hb]
  -- the quotient
  have fq : ∃ m5, finO (q ≠ some x ∧ q ≠ some y) m4 sp q = .ok m5 ∧ (∀ a, q = some a → obj m5 a = Vuint.trim Q) ∧
      ∀ i, (∀ b, pq = some b → i < b ∨ b + 10 ≤ i) → (∀ a, q = some a → i < a ∨ a + 10 ≤ i) → m5 i = m4 i := by
    cases q with
    | none => exact ⟨m4, rfl, fun a h => (by cases h), fun _ _ _ => rfl⟩
    | some a =>
      rw [Option.map_some] at hpq
      have hb := q4 _ hpq
      obtain ⟨m5, g1, g2, g3⟩ := fin_mem (P := some a ≠ some x ∧ some a ≠ some y) (o := a) (s := sp) hb (by omega) (by omega)
        (fun h => if_pos h) (fun h => if_neg h) (sq a rfl)
      refine ⟨m5, g1, fun a' h => by cases h; exact g2, fun i h2 h3 => g3 i (h2 _ hpq) (h3 a rfl)⟩
  obtain ⟨m5, g1, g2, g3⟩ := fq
  rw [g1, Res.bind_ok]
  have r5 : obj m5 pr = R := by
    rw [← r4]
    refine obj_congr (by have : (obj m4 pr).length = m4 (pr + 9) := length_obj ..; rw [r4] at this; omega) fun i h2 h3 => g3 i ?_ ?_
    · intro b hb
      have := (sep b hb).2.2.1
      omega
    · intro a ha
      have h4 := qr a ha
      have h5 := sq a ha
      omega
  obtain ⟨m6, k1, k2, k3⟩ := fin_mem (P := r ≠ x ∧ r ≠ y) (o := r) (s := sp + 10) r5 (by omega) (by omega)
    (fun h => by rw [hpr, if_pos h]) (fun h => by rw [hpr, if_neg h]) (by omega)
  rw [k1, Res.bind_ok]
  refine Or.inr (Or.inl ⟨_, _, _, rfl, rfl, ?_, k2, ?_⟩)
  · intro a ha
    rw [← g2 a ha]
    have h4 := qr a ha
    have h5 := sq a ha
    have h6 : (obj m5 a).length = m5 (a + 9) := length_obj ..
    rw [g2 a ha] at h6
    have h7 := (trim_len (l := Q) (by omega)).2
    exact obj_congr (by omega) fun i h2 h3 => k3 i (by omega) (by omega)
  · intro i h2 h3 h4
    have hb : ∀ b, pq = some b → i < b ∨ b + 10 ≤ i := by
      intro b hb
      obtain ⟨a, ha, h⟩ := hpq' b hb
      have := h4 a ha
      omega
    rw [k3 i (by omega) h3, g3 i hb h4, d7 i (by omega) (by omega) fun b h => by have := hb b h; omega, c2 i (by omega), f2 i h2 hb]

end Mem
end Verif
