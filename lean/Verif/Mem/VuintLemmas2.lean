import Verif.Mem.VuintLemmas

/-! Helper lemmas: shifts and multiplication on objects. -/

namespace Verif
namespace Mem

theorem wr_wr_comm {m : ℕ → ℕ} {a b : ℕ} {l k : List ℕ} (h : a + l.length ≤ b ∨ b + k.length ≤ a) :
    wr (wr m a l) b k = wr (wr m b k) a l := by
  induction k generalizing m b with
  | nil => rfl
  | cons w k ih =>
    rw [List.length_cons] at h
    show wr (Function.update (wr m a l) b w) (b + 1) k = wr (wr (Function.update m b w) (b + 1) k) a l
    rw [← ih (b := b + 1) (by omega), wr_comm (a := a) (by omega)]

theorem range'_eq (n : ℕ) : List.range n = List.range' 0 n := List.range_eq_range' ..

/-! ### shifts -/

theorem down_copy (d x k : ℕ) : ∀ m : ℕ → ℕ, (x ≤ d ∨ d + k ≤ x) →
    (List.range k).reverse.foldl (fun m i => Function.update m (d + i) (m (x + i))) m = wr m d (rd m x k) := by
  induction k with
  | zero => intros; rfl
  | succ k ih =>
    intro m h
    rw [List.range_succ, List.reverse_append, List.reverse_singleton, List.singleton_append, List.foldl_cons, ih _ (by omega),
      rd_update (by omega), rd_succ', wr_append, length_rd, wr_comm (by rw [length_rd]; omega)]
    rfl

theorem up_copy (d x k : ℕ) : ∀ (m : ℕ → ℕ) (i : ℕ), (d ≤ x ∨ x + (i + k) ≤ d) →
    (List.range' i k).foldl (fun m i => Function.update m (d + i) (m (x + i))) m = wr m (d + i) (rd m (x + i) k) := by
  induction k with
  | zero => intros; rfl
  | succ k ih =>
    intro m i h
    rw [List.range'_succ, List.foldl_cons, ih _ _ (by omega), rd_update (by omega), rd, wr]
    rfl

theorem trim_len {l : List ℕ} (h0 : 0 < l.length) : 0 < (Vuint.trim l).length ∧ (Vuint.trim l).length ≤ l.length := by
  obtain ⟨k, hk, -, hp⟩ := Vuint.trim_spec l h0
  refine ⟨hp, ?_⟩
  conv_rhs => rw [hk]
  rw [List.length_append]
  omega

theorem shlUnit_mem {m : ℕ → ℕ} {o x n : ℕ} (h0 : 0 < size m x) (ax : Apart o x) :
    Impl m o (Vuint.shlUnit (obj m x) n) (shlUnit m o x n) := by
  have ex : (obj m x).length = size m x := length_obj ..
  unfold Apart at ax
  unfold Vuint.shlUnit shlUnit
  dsimp only
  rw [ex]
  by_cases h : 9 < size m x + n
  · rw [valloc_gt h, alloc_gt h]
    exact Or.inr (Or.inl ⟨rfl, rfl⟩)
  rw [valloc_le (by omega), alloc_le (by omega), Res.bind_ok, Res.bind_ok]
  have e1 := down_copy (o + n) x (size m x) (Function.update m (o + 9) (size m x + n)) (by omega)
  simp only [Nat.add_assoc, Nat.add_comm n] at e1
  rw [e1, rd_update (by omega), show rd m x (size m x) = obj m x from rfl]
  unfold fill
  have e2 : wr (wr (Function.update m (o + 9) (size m x + n)) (o + n) (obj m x)) o (List.replicate n 0) =
      wr (Function.update m (o + 9) (size m x + n)) o (List.replicate n 0 ++ obj m x) := by
    rw [wr_append, List.length_replicate]
    exact wr_wr_comm (Or.inr (by rw [List.length_replicate]))
  rw [e2]
  have hl : (List.replicate n 0 ++ obj m x).length = size m x + n := by
    rw [List.length_append, List.length_replicate, ex, Nat.add_comm]
  exact impl_trim (obj_wr (by omega) (by rw [Function.update_self, hl])) (by omega) (by omega) (frame_wr (by omega))

theorem length_shlBitLoop (n : ℕ) (x : List ℕ) (p : ℕ) : (Vuint.shlBitLoop n x p).1.length = x.length := by
  induction x generalizing p with
  | nil => rfl
  | cons t x ih => rw [Vuint.shlBitLoop, List.length_cons, List.length_cons, ih]

/-- body of the loop of `shlBit` -/
def shlF (o x n : ℕ) (s : (ℕ → ℕ) × ℕ) (i : ℕ) : (ℕ → ℕ) × ℕ :=
  (Function.update s.1 (o + i) (((s.1 (x + i) * 2 ^ n) % B64) ||| (s.2 / 2 ^ (64 - n))), s.1 (x + i))

theorem shlBit_loop (o x n k : ℕ) : ∀ (m : ℕ → ℕ) (i p : ℕ), (o ≤ x ∨ x + (i + k) ≤ o) →
    ((List.range' i k).foldl (shlF o x n) (m, p)).1 = wr m (o + i) (Vuint.shlBitLoop n (rd m (x + i) k) p).1 ∧
    ((List.range' i k).foldl (shlF o x n) (m, p)).2 / 2 ^ (64 - n) = (Vuint.shlBitLoop n (rd m (x + i) k) p).2 := by
  induction k with
  | zero => intros; exact ⟨rfl, rfl⟩
  | succ k ih =>
    intro m i p h
    rw [List.range'_succ, List.foldl_cons]
    have := ih (Function.update m (o + i) (((m (x + i) * 2 ^ n) % B64) ||| (p / 2 ^ (64 - n)))) (i + 1) (m (x + i)) (by omega)
    rw [rd_update (by omega)] at this
    exact this

theorem shlBit_mem {m : ℕ → ℕ} {o x n : ℕ} (h9 : size m x ≤ 9) (ax : Apart o x) :
    Impl m o (Vuint.shlBit (obj m x) n) (shlBit m o x n) := by
  have ex : (obj m x).length = size m x := length_obj ..
  unfold Apart at ax
  unfold Vuint.shlBit shlBit
  by_cases hn : ¬ (0 < n ∧ n < 64)
  · rw [if_pos hn, if_pos hn]
    exact Or.inr (Or.inr ⟨rfl, rfl⟩)
  rw [if_neg hn, if_neg hn]
  dsimp only
  rw [ex, valloc_le h9, alloc_le h9, Res.bind_ok, Res.bind_ok, range'_eq]
  obtain ⟨e1, e2⟩ := shlBit_loop o x n (size m x) (Function.update m (o + 9) (size m x)) 0 0 (by omega)
  simp only [Nat.add_zero] at e1 e2
  rw [rd_update (by omega), show rd m x (size m x) = obj m x from rfl] at e1 e2
  have hl : (Vuint.shlBitLoop n (obj m x) 0).1.length = size m x := by rw [length_shlBitLoop, ex]
  have ho := obj_wr (m := Function.update m (o + 9) (size m x)) (o := o) (l := (Vuint.shlBitLoop n (obj m x) 0).1) (by omega)
    (by rw [Function.update_self, hl])
  have hf : Frame m (wr (Function.update m (o + 9) (size m x)) o (Vuint.shlBitLoop n (obj m x) 0).1) o := frame_wr (by omega)
  have e3 := impl_top (w := (Vuint.shlBitLoop n (obj m x) 0).2) ho (by omega) hf
  rw [hl] at e3
  unfold shlF at e1 e2
  rw [e2, e1]
  split_ifs with hc
  · exact e3
  · exact Or.inl ⟨_, _, rfl, rfl, ho, hf⟩

theorem shrUnit_mem {m : ℕ → ℕ} {o x n : ℕ} (h9 : size m x ≤ 9) (ax : Apart o x) :
    Impl m o (Vuint.shrUnit (obj m x) n) (shrUnit m o x n) := by
  have ex : (obj m x).length = size m x := length_obj ..
  unfold Apart at ax
  unfold Vuint.shrUnit shrUnit
  dsimp only
  rw [ex]
  by_cases h : size m x ≤ n
  · rw [if_pos h, if_pos h]
    refine Or.inl ⟨_, _, rfl, rfl, ?_, ?_⟩
    · unfold obj size set1
      rw [Function.update_of_ne (by omega), Function.update_self, rd, rd, Function.update_self]
    · unfold set1
      have h1 : Frame m (Function.update m (o + 9) 1) o := frame_update (fun _ _ => rfl) (by norm_num)
      exact frame_update (j := 0) h1 (by norm_num)
  rw [if_neg h, if_neg h, valloc_le h9, alloc_le h9, Res.bind_ok, Res.bind_ok, range'_eq]
  have e1 := up_copy o (x + n) (size m x - n) (Function.update m (o + 9) (size m x)) 0 (by omega)
  simp only [Nat.add_assoc, Nat.add_comm n, Nat.add_zero] at e1
  rw [e1, rd_update (by omega), show rd m (x + n) (size m x - n) = (obj m x).drop n from rd_drop.symm, alloc_le (by omega)]
  have hl : ((obj m x).drop n).length = size m x - n := by rw [List.length_drop, ex]
  refine Or.inl ⟨_, _, rfl, rfl, ?_, frame_update (frame_wr (by omega)) (by norm_num)⟩
  unfold obj
  rw [show size (Function.update _ (o + 9) (size m x - n)) o = size m x - n from Function.update_self .., rd_update (by omega)]
  show rd (wr _ o ((obj m x).drop n)) o (size m x - n) = _
  rw [← hl]
  exact rd_wr

theorem length_shrBitLoop (n : ℕ) (x : List ℕ) (p : ℕ) : (Vuint.shrBitLoop n x p).length = x.length := by
  induction x generalizing p with
  | nil => rfl
  | cons t x ih => rw [Vuint.shrBitLoop, List.length_cons, List.length_cons, ih]

/-- body of the loop of `shrBit` -/
def shrF (o x n : ℕ) (s : (ℕ → ℕ) × ℕ) (i : ℕ) : (ℕ → ℕ) × ℕ :=
  (Function.update s.1 (o + i) ((s.1 (x + i) / 2 ^ n) ||| ((s.2 * 2 ^ (64 - n)) % B64)), s.1 (x + i))

theorem shrBit_loop (o x n k : ℕ) : ∀ (m : ℕ → ℕ) (p : ℕ), (x ≤ o ∨ o + k ≤ x) →
    ((List.range k).reverse.foldl (shrF o x n) (m, p)).1 = wr m o (Vuint.shrBitLoop n (rd m x k).reverse p).reverse := by
  induction k with
  | zero => intros; rfl
  | succ k ih =>
    intro m p h
    rw [List.range_succ, List.reverse_append, List.reverse_singleton, List.singleton_append, List.foldl_cons]
    have e := ih (Function.update m (o + k) ((m (x + k) / 2 ^ n) ||| ((p * 2 ^ (64 - n)) % B64))) (m (x + k)) (by omega)
    rw [rd_update (by omega)] at e
    rw [rd_succ', List.reverse_append, List.reverse_singleton, List.singleton_append, Vuint.shrBitLoop, List.reverse_cons, wr_append,
      List.length_reverse, length_shrBitLoop, List.length_reverse, length_rd, wr, wr,
      ← wr_comm (by rw [List.length_reverse, length_shrBitLoop, List.length_reverse, length_rd]; omega)]
    exact e

theorem shrBit_mem {m : ℕ → ℕ} {o x n : ℕ} (h0 : 0 < size m x) (h9 : size m x ≤ 9) (ax : Apart o x) :
    Impl m o (Vuint.shrBit (obj m x) n) (shrBit m o x n) := by
  have ex : (obj m x).length = size m x := length_obj ..
  unfold Apart at ax
  unfold Vuint.shrBit shrBit
  by_cases hn : ¬ (0 < n ∧ n < 64)
  · rw [if_pos hn, if_pos hn]
    exact Or.inr (Or.inr ⟨rfl, rfl⟩)
  rw [if_neg hn, if_neg hn]
  dsimp only
  rw [ex, valloc_le h9, alloc_le h9, Res.bind_ok, Res.bind_ok]
  have e1 := shrBit_loop o x n (size m x) (Function.update m (o + 9) (size m x)) 0 (by omega)
  rw [rd_update (by omega), show rd m x (size m x) = obj m x from rfl] at e1
  have hl : (Vuint.shrBitLoop n (obj m x).reverse 0).reverse.length = size m x := by
    rw [List.length_reverse, length_shrBitLoop, List.length_reverse, ex]
  unfold shrF at e1
  rw [e1]
  exact impl_trim (obj_wr (by omega) (by rw [Function.update_self, hl])) (by omega) (by omega) (frame_wr (by omega))

/-- `operator=` -/
theorem copy_obj {m : ℕ → ℕ} {o x : ℕ} (h9 : size m x ≤ 9) (ax : Apart o x) :
    obj (copy m o x) o = obj m x ∧ Frame m (copy m o x) o := by
  unfold Apart at ax
  unfold copy
  dsimp only
  rw [rd_update (by omega)]
  have hl : (rd m x (size m x)).length = size m x := length_rd ..
  exact ⟨obj_wr (by omega) (by rw [Function.update_self, hl]), frame_wr (by omega)⟩

theorem Frame.trans {m m' m'' : ℕ → ℕ} {o : ℕ} (h : Frame m m' o) (h' : Frame m' m'' o) : Frame m m'' o :=
  fun i hi => (h' i hi).trans (h i hi)

theorem Impl.frame {m m' : ℕ → ℕ} {o : ℕ} {r : Res (List ℕ)} {run : Res (ℕ → ℕ)} (hf : Frame m m' o) (h : Impl m' o r run) :
    Impl m o r run := by
  rcases h with ⟨z, m'', h1, h2, h3, h4⟩ | h | h
  · exact Or.inl ⟨z, m'', h1, h2, h3, hf.trans h4⟩
  · exact Or.inr (Or.inl h)
  · exact Or.inr (Or.inr h)

theorem Impl.bind {m : ℕ → ℕ} {o : ℕ} {r : Res (List ℕ)} {run : Res (ℕ → ℕ)} {f : List ℕ → Res (List ℕ)}
    {g : (ℕ → ℕ) → Res (ℕ → ℕ)} (h : Impl m o r run) (hfg : ∀ m', r = .ok (obj m' o) → Frame m m' o → Impl m' o (f (obj m' o)) (g m')) :
    Impl m o (r >>= f) (run >>= g) := by
  rcases h with ⟨z, m', h1, h2, h3, h4⟩ | ⟨h1, h2⟩ | ⟨h1, h2⟩
  · subst h3
    rw [h1, h2, Res.bind_ok, Res.bind_ok]
    exact (hfg m' h1 h4).frame h4
  · rw [h1, h2]
    exact Or.inr (Or.inl ⟨rfl, rfl⟩)
  · rw [h1, h2]
    exact Or.inr (Or.inr ⟨rfl, rfl⟩)

theorem Impl.same {m : ℕ → ℕ} {o : ℕ} : Impl m o (.ok (obj m o)) (.ok m) := Or.inl ⟨_, _, rfl, rfl, rfl, fun _ _ => rfl⟩

theorem shl_mem {m : ℕ → ℕ} {o x : ℕ} (n : ℕ) (h0 : 0 < size m x) (h9 : size m x ≤ 9) (ax : Apart o x) :
    Impl m o (Vuint.shl (obj m x) n) (shl m o x n) := by
  unfold Vuint.shl shl
  by_cases hn : n = 0
  · rw [if_pos hn, if_pos hn]
    obtain ⟨h1, h2⟩ := copy_obj h9 ax
    exact Or.inl ⟨_, _, rfl, rfl, h1, h2⟩
  rw [if_neg hn, if_neg hn]
  dsimp only
  by_cases hq : n / 64 = 0
  · rw [if_neg (not_not.mpr hq), if_neg (not_not.mpr hq), if_neg (not_not.mpr hq)]
    rw [Res.bind_ok, Res.pure_eq, Res.bind_ok, if_pos (by omega), if_pos (by omega)]
    exact shlBit_mem h9 ax
  · rw [if_pos hq, if_pos hq, if_pos hq]
    refine (shlUnit_mem h0 ax).bind fun m' hr hf => ?_
    split_ifs with h1
    · refine shlBit_mem ?_ (Or.inl rfl)
      unfold Vuint.shlUnit at hr
      by_cases h : (obj m x).length + n / 64 ≤ 9
      · rw [valloc_le h, Res.bind_ok, Res.pure_eq] at hr
        have := (trim_len (l := List.replicate (n / 64) 0 ++ obj m x) (by
          rw [List.length_append, length_obj]; unfold size at h0; omega)).2
        rw [Res.ok.injEq] at hr
        rw [hr, length_obj, List.length_append, List.length_replicate] at this
        unfold size
        omega
      · rw [valloc_gt (by omega)] at hr
        cases hr
    · exact Impl.same

theorem shr_mem {m : ℕ → ℕ} {o x : ℕ} (n : ℕ) (h0 : 0 < size m x) (h9 : size m x ≤ 9) (ax : Apart o x) :
    Impl m o (Vuint.shr (obj m x) n) (shr m o x n) := by
  unfold Vuint.shr shr
  by_cases hn : n = 0
  · rw [if_pos hn, if_pos hn]
    obtain ⟨h1, h2⟩ := copy_obj h9 ax
    exact Or.inl ⟨_, _, rfl, rfl, h1, h2⟩
  rw [if_neg hn, if_neg hn]
  dsimp only
  by_cases hq : n / 64 = 0
  · rw [if_neg (not_not.mpr hq), if_neg (not_not.mpr hq), if_neg (not_not.mpr hq)]
    rw [Res.bind_ok, Res.pure_eq, Res.bind_ok, if_pos (by omega), if_pos (by omega)]
    exact shrBit_mem h0 h9 ax
  · rw [if_pos hq, if_pos hq, if_pos hq]
    refine (shrUnit_mem h9 ax).bind fun m' hr hf => ?_
    split_ifs with h1
    · have hz : (obj m' o).length = m' (o + 9) := length_obj ..
      unfold Vuint.shrUnit at hr
      by_cases h : (obj m x).length ≤ n / 64
      · rw [if_pos h, Res.ok.injEq] at hr
        rw [← hr] at hz
        have hz' : m' (o + 9) = 1 := hz.symm
        exact shrBit_mem (by unfold size; omega) (by unfold size; omega) (Or.inl rfl)
      · have hx : (obj m x).length = size m x := length_obj ..
        rw [if_neg h, valloc_le (by omega), Res.bind_ok, Res.pure_eq, Res.ok.injEq] at hr
        rw [← hr, List.length_drop] at hz
        exact shrBit_mem (by unfold size; omega) (by unfold size; omega) (Or.inl rfl)
    · exact Impl.same

end Mem
end Verif
