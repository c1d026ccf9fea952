import Verif.Ec.Lemmas

/-! The memory forms of the curve routines against the pure forms, for arbitrary addresses. -/

namespace Verif.Ec

variable {K : Type} [Add K] [Sub K] [Mul K] [Neg K] [Inv K] [Zero K] [One K] [FF K]

/-- memory with the triple at one address replaced -/
def Mem.put (m : Mem K) (o : ℕ) (P : J K) : Mem K := fun k => if k = o then P else m k

omit [Add K] [Sub K] [Mul K] [Neg K] [Inv K] [Zero K] [One K] [FF K] in
theorem put_same (m : Mem K) (o : ℕ) (P : J K) : m.put o P o = P := if_pos rfl
omit [Add K] [Sub K] [Mul K] [Neg K] [Inv K] [Zero K] [One K] [FF K] in
theorem put_other (m : Mem K) {o k : ℕ} (h : k ≠ o) (P : J K) : m.put o P k = m k := if_neg h
omit [Add K] [Sub K] [Mul K] [Neg K] [Inv K] [Zero K] [One K] [FF K] in
theorem put_put (m : Mem K) (o : ℕ) (P Q : J K) : (m.put o P).put o Q = m.put o Q := by
  funext k; unfold Mem.put; split <;> rfl

omit [Add K] [Sub K] [Mul K] [Neg K] [Inv K] [Zero K] [One K] [FF K] in
theorem copyAt_eq (m : Mem K) (o i : ℕ) : copyAt m o i = m.put o (m i) := by
  funext k
  unfold copyAt Mem.setX Mem.setY Mem.setZ Mem.put
  by_cases hk : k = o <;> by_cases hi : i = o <;> simp [hk, hi]

omit [Add K] [Sub K] [Mul K] [Neg K] [Inv K] [One K] [FF K] in
theorem clearAt_eq (m : Mem K) (o : ℕ) : clearAt m o = m.put o clear := by
  funext k
  unfold clearAt Mem.setX Mem.setY Mem.setZ Mem.put clear
  by_cases hk : k = o <;> simp [hk]

omit [Add K] [Sub K] [Mul K] [Inv K] [Zero K] [One K] [FF K] in
theorem negAt_eq (m : Mem K) (o i : ℕ) : negAt m o i = m.put o (neg (m i)) := by
  funext k
  unfold negAt Mem.setX Mem.setY Mem.setZ Mem.put neg
  by_cases hk : k = o <;> by_cases hi : i = o <;> simp [hk, hi]

omit [Add K] [Sub K] [Neg K] in
theorem normalizeJacAt_eq (m : Mem K) (o i : ℕ) : normalizeJacAt m o i = m.put o (normalizeJac (m i)) := by
  unfold normalizeJacAt normalizeJac
  split
  · exact clearAt_eq m o
  · split
    · exact copyAt_eq m o i
    · funext k
      unfold Mem.setX Mem.setY Mem.setZ Mem.put
      by_cases hk : k = o <;> by_cases hi : i = o <;> simp [hk, hi]

omit [Neg K] [Inv K] [Zero K] [One K] in
theorem dblAt_eq (m : Mem K) (o i : ℕ) : dblAt m o i = m.put o (dbl (m i)) := by
  funext k
  unfold dblAt dbl Mem.setX Mem.setY Mem.setZ Mem.put
  by_cases hk : k = o <;> by_cases hi : i = o <;> simp [hk, hi]

omit [Neg K] [Inv K] [One K] in
theorem addAt_eq (m : Mem K) (o a b : ℕ) : addAt m o a b = m.put o (add (m o) (m a) (m b)) := by
  unfold addAt add
  split
  · exact copyAt_eq m o b
  · split
    · exact copyAt_eq m o a
    · dsimp only
      split
      · split
        · exact dblAt_eq m o a
        · funext k
          unfold Mem.setZ Mem.put
          by_cases hk : k = o <;> simp [hk]
      · funext k
        unfold Mem.setX Mem.setY Mem.setZ Mem.put
        by_cases hk : k = o <;> by_cases ha : a = o <;> by_cases hb : b = o <;> simp [hk, ha, hb]

omit [Inv K] [One K] in
theorem subAt_eq (m : Mem K) (t o a b : ℕ) (h1 : t ≠ o) (h2 : t ≠ a) :
    subAt m t o a b = (m.put t (neg (m b))).put o (sub (m o) (m a) (m b)) := by
  unfold subAt sub
  rw [addAt_eq, negAt_eq, put_other m (Ne.symm h1), put_other m (Ne.symm h2), put_same]

omit [Neg K] [Inv K] [One K] in
theorem smLoopAt_eq (W o i : ℕ) (h : o ≠ i) : ∀ (n v : ℕ) (m : Mem K),
    smLoopAt W o i n v m = m.put o (smLoop W (m i) n v (m o)) := by
  intro n
  induction n with
  | zero =>
    intro v m
    funext k
    unfold smLoopAt smLoop Mem.put
    split
    · rename_i hk; rw [hk]
    · rfl
  | succ n ih =>
    intro v m
    unfold smLoopAt smLoop
    dsimp only
    split
    · rw [dblAt_eq, addAt_eq, put_put, put_same, put_other m h.symm, ih, put_put, put_same,
        put_other m h.symm]
    · rw [dblAt_eq, ih, put_put, put_same, put_other m h.symm]

omit [Neg K] [Inv K] [One K] in
theorem smWordsAt_eq (W o i : ℕ) (h : o ≠ i) : ∀ (vs : List ℕ) (m : Mem K),
    smWordsAt W o i vs m = m.put o (smWords W (m i) vs (m o)) := by
  intro vs
  induction vs with
  | nil =>
    intro m
    funext k
    unfold smWordsAt smWords Mem.put
    split
    · rename_i hk; rw [hk]
    · rfl
  | cons v vs ih =>
    intro m
    unfold smWordsAt smWords
    rw [smLoopAt_eq W o i h, ih, put_put, put_same, put_other m h.symm]

omit [Neg K] [Inv K] [One K] in
theorem scalarMultAt_eq (m : Mem K) (t o i : ℕ) (h : t ≠ o) (s : List ℕ) :
    ∃ m', scalarMultAt m t o i s = Mem.put m' o (scalarMult (m i) s) ∧ ∀ k, k ≠ t → m' k = m k := by
  unfold scalarMultAt scalarMult
  split
  · exact ⟨m, clearAt_eq m o, fun _ _ => rfl⟩
  · by_cases hoi : o = i
    · refine ⟨m.put t (m i), ?_, fun k hk => put_other m hk _⟩
      rw [if_pos hoi, copyAt_eq]
      dsimp only
      cases s.reverse with
      | nil => simp only [smMain]; rw [copyAt_eq, put_same]
      | cons v vs =>
        simp only [smMain]
        rw [copyAt_eq, smLoopAt_eq _ _ _ h.symm, smWordsAt_eq _ _ _ h.symm]
        simp only [put_put, put_same, put_other _ h]
    · refine ⟨m, ?_, fun _ _ => rfl⟩
      rw [if_neg hoi]
      dsimp only
      cases s.reverse with
      | nil => simp only [smMain]; rw [copyAt_eq]
      | cons v vs =>
        simp only [smMain]
        rw [copyAt_eq, smLoopAt_eq _ _ _ hoi, smWordsAt_eq _ _ _ hoi]
        simp only [put_put, put_same, put_other _ (Ne.symm hoi)]

end Verif.Ec
