import Verif.Java.Spec
import Verif.PowerLemmas
import Mathlib.Data.Nat.Digits.Lemmas

/-! The Java calls against their mathematical reading. -/

namespace Verif.Java
open FF Ec

/-! ### GMP integers -/

theorem val_limbs (z : ℤ) : val (limbs z) = z.natAbs := by
  have h : ∀ l : List ℕ, val l = Nat.ofDigits B64 l := by
    intro l
    induction l with
    | nil => rfl
    | cons a l ih => rw [val_cons, Nat.ofDigits_cons, ih]
  rw [h]; exact Nat.ofDigits_digits _ _

theorem words_limbs (z : ℤ) : Words (limbs z) := fun _ hw => Nat.digits_lt_base (by norm_num) hw

theorem limbs_zero : limbs 0 = [] := by unfold limbs; exact Nat.digits_zero _

theorem limbs_ne {z : ℤ} (h : z ≠ 0) : limbs z ≠ [] :=
  Nat.digits_ne_nil_iff_ne_zero.2 (Int.natAbs_ne_zero.2 h)

theorem limbs_pos {z : ℤ} (h : z ≠ 0) : 0 < (limbs z).length := List.length_pos_iff.2 (limbs_ne h)

theorem limbs_top {z : ℤ} (h : z ≠ 0) : (limbs z).getLast (limbs_ne h) ≠ 0 :=
  Nat.getLast_digit_ne_zero _ (Int.natAbs_ne_zero.2 h)

theorem blockSize_nonneg {z : ℤ} (h : 0 ≤ z) (hf : Fits z) : blockSize z = (limbs z).length := by
  unfold Fits at hf
  have h1 : mpSize z = (limbs z).length := by
    unfold mpSize
    rcases h.eq_or_lt with h0 | h0
    · rw [← h0, limbs_zero]; rfl
    · rw [Int.sign_eq_one_of_pos h0, one_mul]
  unfold blockSize
  rw [h1]
  omega

theorem blockSize_neg {z : ℤ} (h : z < 0) (hf : Fits z) : blockSize z + (limbs z).length = 2 ^ 64 := by
  have hp := limbs_pos h.ne
  unfold Fits at hf
  have h1 : mpSize z = -(limbs z).length := by
    unfold mpSize; rw [Int.sign_eq_neg_one_of_neg h, neg_one_mul]
  unfold blockSize
  rw [h1]
  omega

theorem block_ok {z : ℤ} {i : ℕ} (h : i < (limbs z).length) : block z i = .ok (limbs z)[i] := dif_pos h
theorem block_ub {z : ℤ} {i : ℕ} (h : (limbs z).length ≤ i) : block z i = .ub := dif_neg (by omega)

/-! ### `power` -/

section
variable {M : Type} [Monoid M]

theorem powMpzLoop_eq {y : ℤ} : ∀ (fuel i : ℕ) (out t : M), fuel + i = (limbs y).length →
    powMpzLoop y (limbs y).length fuel i out t = .ok (powBlocks 64 ((limbs y).drop i) out t) := by
  intro fuel
  induction fuel with
  | zero =>
    intro i out t h
    rw [List.drop_eq_nil_of_le (by omega)]; rfl
  | succ n ih =>
    intro i out t h
    have hi : i < (limbs y).length := by omega
    rw [powMpzLoop, block_ok hi, Res.bind_ok, List.drop_eq_getElem_cons hi]
    by_cases hl : n = 0
    · rw [if_pos (by omega), hl, List.drop_eq_nil_of_le (by omega)]
      rfl
    · rw [if_neg (by omega)]
      have hi' : i + 1 < (limbs y).length := by omega
      dsimp only
      rw [ih (i + 1) _ _ (by omega), List.drop_eq_getElem_cons hi', powBlocks]

theorem powMpz_eq (x : M) {y : ℤ} (h : 0 ≤ y) (hf : Fits y) : powMpz x y = .ok (x ^ y.toNat) := by
  unfold powMpz
  rw [blockSize_nonneg h hf, powMpzLoop_eq _ 0 1 x rfl, List.drop_zero]
  have := power_eq x (words_limbs y)
  unfold power at this
  rw [this, val_limbs]
  congr 2
  omega

theorem powMpzLoop_ub {y : ℤ} (n : ℕ) : ∀ (fuel i : ℕ) (out t : M), (limbs y).length < fuel + i →
    i ≤ (limbs y).length → powMpzLoop y n fuel i out t = .ub := by
  intro fuel
  induction fuel with
  | zero => intro i out t h h'; omega
  | succ k ih =>
    intro i out t h h'
    rw [powMpzLoop]
    rcases h'.eq_or_lt with e | hi
    · rw [block_ub e.ge, Res.bind_ub]
    · rw [block_ok hi, Res.bind_ok]
      exact ih _ _ _ (by omega) hi

theorem powMpz_ub (x : M) {y : ℤ} (h : y < 0) (hf : Fits y) : powMpz x y = .ub := by
  have h1 := blockSize_neg h hf
  unfold Fits at hf
  exact powMpzLoop_ub _ _ 0 _ _ (by omega) (Nat.zero_le _)
end

/-! ### `ScalarMult` -/

section
variable {K : Type} [Field K] [DecidableEq K] [FF K] [LawfulFF K]

omit [DecidableEq K] [LawfulFF K] in
theorem smWordsMpz_eq (z : ℤ) (o i : ℕ) : ∀ (n : ℕ) (m : Mem K), n ≤ (limbs z).length →
    smWordsMpz z o i n m = .ok (smWordsAt 64 o i ((limbs z).take n).reverse m) := by
  intro n
  induction n with
  | zero => intro m _; rfl
  | succ n ih =>
    intro m h
    rw [smWordsMpz, block_ok (by omega), Res.bind_ok, ih _ (by omega), List.take_succ_eq_append_getElem (by omega),
      List.reverse_append]
    rfl

theorem toInt32_of {n : ℕ} (h : n ≤ 2147483647) : toInt32 n = n := by unfold toInt32; omega

omit [DecidableEq K] [LawfulFF K] in
/-- negative scalar: the first access is out of range -/
theorem scalarMultMpz_ub (m : Mem K) (t o i : ℕ) {z : ℤ} (h : z < 0) (hf : Fits z) :
    scalarMultMpz m t o i z = .ub := by
  have h1 := blockSize_neg h hf
  have h2 := limbs_pos h.ne
  unfold Fits at hf
  have h3 : toInt32 (blockSize z) = -(limbs z).length := by unfold toInt32; omega
  have h4 : (limbs z).length ≤ toSize (toInt32 (blockSize z) - 1) := by rw [h3]; unfold toSize; omega
  unfold scalarMultMpz
  rw [if_neg h.ne]
  dsimp only
  rw [block_ub h4, Res.bind_ub]

/-- `ScalarMult(P, P, z)` in place, local at `t` -/
theorem scalarMultMpz_rep {b : K} (hb : Good b) (m : Mem K) {t o : ℕ} (ht : t ≠ o) {z : ℤ} (h : 0 ≤ z) (hf : Fits z)
    {A : (curve b).Point} (hA : Rep b (m o) A) :
    ∃ m', scalarMultMpz m t o o z = .ok m' ∧ Rep b (m' o) (z • A) ∧ ∀ k, k ≠ t → k ≠ o → m' k = m k := by
  unfold scalarMultMpz
  by_cases hz : z = 0
  · rw [if_pos hz]
    refine ⟨_, rfl, ?_, fun k _ hk => ?_⟩
    · rw [clearAt_eq, put_same, hz, zero_smul]; exact rep_clear
    · rw [clearAt_eq, put_other _ hk]
  have hp := limbs_pos hz
  have hbs := blockSize_nonneg h hf
  unfold Fits at hf
  have h1 : toInt32 (blockSize z) = (limbs z).length := by rw [hbs, toInt32_of hf]
  have h2 : toSize ((limbs z).length - 1 : ℤ) = (limbs z).length - 1 := by unfold toSize; omega
  have h3 : ((limbs z).length - 1 : ℤ).toNat = (limbs z).length - 1 := by omega
  have hi : (limbs z).length - 1 < (limbs z).length := by omega
  rw [if_neg hz, if_pos rfl]
  dsimp only
  rw [h1, h2, h3, block_ok hi, Res.bind_ok, smWordsMpz_eq _ _ _ _ _ (by omega)]
  refine ⟨_, rfl, ?_, fun k hk hk' => ?_⟩
  · rw [smWordsAt_eq _ _ _ ht.symm, put_same, smLoopAt_eq _ _ _ ht.symm, put_same, put_other _ ht, copyAt_eq, copyAt_eq,
      put_same, put_same, put_other _ ht, put_same]
    have key := rep_smMain hb (W := 64) (by norm_num) hA ((limbs z)[(limbs z).length - 1])
      ((limbs z).take ((limbs z).length - 1)).reverse ?_ (words_limbs z _ (List.getElem_mem _))
      (fun u hu => words_limbs z u (List.mem_of_mem_take (List.mem_reverse.1 hu)))
    · have e : List.foldl (fun acc u => acc * 2 ^ 64 + u) ((limbs z)[(limbs z).length - 1])
          ((limbs z).take ((limbs z).length - 1)).reverse = z.natAbs := by
        rw [← val_limbs z]
        have hl : limbs z = (limbs z).take ((limbs z).length - 1) ++ [(limbs z)[(limbs z).length - 1]] := by
          rw [← List.take_succ_eq_append_getElem hi, Nat.sub_add_cancel hp, List.take_length]
        conv_rhs => rw [hl]
        generalize (limbs z)[(limbs z).length - 1] = v
        generalize (limbs z).take ((limbs z).length - 1) = l
        rw [List.foldl_reverse]
        induction l with
        | nil => simp [val]
        | cons a l ih => rw [List.foldr_cons, ih, List.cons_append, val_cons]; ring
      rw [e] at key
      have ez : z • A = z.natAbs • A := by
        rw [← natCast_zsmul, Int.natAbs_of_nonneg h]
      rw [ez]
      exact key
    · have := limbs_top hz
      rw [List.getLast_eq_getElem] at this
      omega
  · rw [smWordsAt_eq _ _ _ ht.symm, put_other _ hk', smLoopAt_eq _ _ _ ht.symm, put_other _ hk', copyAt_eq, copyAt_eq,
      put_other _ hk', put_other _ hk]

/-! ### `normalize` and `operator==` in place -/

omit [DecidableEq K] [LawfulFF K] in
theorem normalizeAt_eq (m : Mem K) (o : ℕ) : normalizeAt m o = m.put o (normalize (m o)) := by
  unfold normalizeAt Ec.normalize
  split
  · funext k; unfold Mem.put; split
    · rename_i h; rw [h]
    · rfl
  · funext k
    unfold Mem.setX Mem.setY Mem.setZ Mem.put
    by_cases hk : k = o <;> simp [hk]

theorem normalizeAt_rep {b : K} {m : Mem K} (o : ℕ) {k : ℕ} {A : (curve b).Point} (h : Rep b (m k) A) :
    Rep b (normalizeAt m o k) A := by
  rw [normalizeAt_eq]
  by_cases e : k = o
  · subst e; rw [put_same]; exact (normalize_spec h).1
  · rw [put_other _ e]; exact h

theorem normalize_idem {b : K} {P : J K} {A : (curve b).Point} (h : Rep b P A) :
    normalize (normalize P) = normalize P := by
  have h1 := (normalize_spec h).2
  have : (isInf (normalize P) || eqb (normalize P).z 1) = true := by
    rcases h1 with e | e
    · rw [(LawfulFF.eqb_iff _ _).2 e, Bool.or_true]
    · rw [show isInf (normalize P) = true from (LawfulFF.isZero_iff _).2 e, Bool.true_or]
  rw [Ec.normalize, if_pos this]

theorem equalsAt_eq {b : K} (m : Mem K) (x y : ℕ) {A C : (curve b).Point} (hA : Rep b (m x) A) (hC : Rep b (m y) C) :
    (equalsAt m x y).2 = Ec.eq (m x) (m y) := by
  have e1 : normalizeAt (normalizeAt m x) y x = normalize (m x) := by
    rw [normalizeAt_eq, normalizeAt_eq]
    by_cases e : x = y
    · subst e; rw [put_same, put_same, normalize_idem hA]
    · rw [put_other _ e, put_same]
  have e2 : normalizeAt (normalizeAt m x) y y = normalize (m y) := by
    rw [normalizeAt_eq, normalizeAt_eq, put_same]
    by_cases e : x = y
    · subst e; rw [put_same, normalize_idem hA]
    · rw [put_other _ (Ne.symm e)]
  unfold equalsAt
  dsimp only
  rw [e1, e2]
  rfl

/-! ### Points -/

omit [FF K] [LawfulFF K] in
theorem jacPoint_some {b x y z : K} {A : (curve b).Point} (h : jacPoint b x y z = some A) : Rep b ⟨x, y, z⟩ A := by
  unfold jacPoint at h
  split at h
  · rename_i hz
    cases h; exact .inl ⟨hz, rfl⟩
  · rename_i hz
    split at h
    · rename_i hn
      cases h; exact .inr ⟨hz, hn, rfl⟩
    · cases h

omit [FF K] [LawfulFF K] in
theorem jacPoint_none {b : K} (hb : Good b) {x y z : K} : jacPoint b x y z = none ↔ ¬ Valid b ⟨x, y, z⟩ := by
  constructor
  · intro h hv
    obtain ⟨A, hA⟩ := hv.rep hb
    unfold jacPoint at h
    rcases hA with ⟨h1, -⟩ | ⟨h1, h2, -⟩
    · rw [if_pos h1] at h; cases h
    · rw [if_neg h1, dif_pos h2] at h; cases h
  · intro h
    cases hj : jacPoint b x y z with
    | none => rfl
    | some A => exact absurd ((jacPoint_some hj).valid hb) h

/-- the object stores `m` agree with the points `n` -/
def Pts (b : K) (m : Mem K) (n : ℕ → Option (curve b).Point) : Prop := ∀ k A, n k = some A → Rep b (m (ob k)) A

omit [DecidableEq K] [FF K] [LawfulFF K] in
theorem Pts.upd {b : K} {m m' : Mem K} {n : ℕ → Option (curve b).Point} (h : Pts b m n) (a : ℕ)
    {P : Option (curve b).Point} (hP : ∀ A, P = some A → Rep b (m' (ob a)) A)
    (hm : ∀ k, k ≠ 0 → k ≠ ob a → m' k = m k) : Pts b m' (Function.update n a P) := by
  intro k A hk
  by_cases e : k = a
  · subst e; rw [Function.update_self] at hk; exact hP A hk
  · rw [Function.update_of_ne e] at hk
    rw [hm (ob k) (by unfold ob; omega) (by unfold ob; omega)]
    exact h k A hk

omit [DecidableEq K] [FF K] [LawfulFF K] in
theorem Pts.put {b : K} {m : Mem K} {n : ℕ → Option (curve b).Point} (h : Pts b m n) (a : ℕ) {Q : J K}
    {P : Option (curve b).Point} (hP : ∀ A, P = some A → Rep b Q A) : Pts b (m.put (ob a) Q) (Function.update n a P) :=
  h.upd a (fun A hA => by rw [put_same]; exact hP A hA) (fun k _ hk => put_other _ hk _)

/-- one call on a point -/
theorem ecStep_sim {b : K} (hb : Good b) {valid : J K → Bool} (hv : ∀ P, valid P = true ↔ Valid b P) {z : ℕ → ℤ}
    (hz : ∀ k, Fits (z k)) (f : ℕ → K) {m : Mem K} {n : ℕ → Option (curve b).Point} (h : Pts b m n) (c : EcCall)
    {n' : ℕ → Option (curve b).Point} {out : Out} (hc : aEc b z f n c = some (n', out)) :
    ∃ m', ecStep valid z f m c = .ok (m', out) ∧ Pts b m' n' := by
  have hset : ∀ (a : ℕ) (x y w : K) (n' : ℕ → Option (curve b).Point) (out : Out),
      aSet b n a (jacPoint b x y w) = (n', out) →
      ∃ m', checked valid (m.put (ob a) ⟨x, y, w⟩) (ob a) = (m', out) ∧ Pts b m' n' := by
    intro a x y w n' out e
    unfold aSet at e
    cases e
    refine ⟨_, ?_, h.put a (Q := ⟨x, y, w⟩) (fun A hA => jacPoint_some hA)⟩
    unfold checked
    rw [put_same]
    congr 1
    by_cases hj : jacPoint b x y w = none
    · have : valid ⟨x, y, w⟩ = false := by
        rw [← Bool.not_eq_true, hv]; exact (jacPoint_none hb).1 hj
      rw [if_pos hj, this]; rfl
    · have : valid ⟨x, y, w⟩ = true := by
        rw [hv]; by_contra hn; exact hj ((jacPoint_none hb).2 hn)
      rw [if_neg hj, this]; rfl
  have one : ∀ {a : ℕ} {g : (curve b).Point → (ℕ → Option (curve b).Point) × Out}, (n a).map g = some (n', out) →
      ∃ A, n a = some A ∧ Rep b (m (ob a)) A ∧ g A = (n', out) := by
    intro a g e
    cases hA : n a with
    | none => rw [hA] at e; cases e
    | some A => rw [hA, Option.map_some, Option.some.injEq] at e; exact ⟨A, rfl, h a A hA, e⟩
  have two : ∀ {a d : ℕ} {g : (curve b).Point → (curve b).Point → (ℕ → Option (curve b).Point) × Out},
      ((n a).bind fun A => (n d).map (g A)) = some (n', out) →
      ∃ A D, Rep b (m (ob a)) A ∧ Rep b (m (ob d)) D ∧ g A D = (n', out) := by
    intro a d g e
    cases hA : n a with
    | none => rw [hA] at e; cases e
    | some A =>
      rw [hA, Option.bind_some] at e
      obtain ⟨D, -, hD, e⟩ := one e
      exact ⟨A, D, h a A hA, hD, e⟩
  cases c with
  | copy a d =>
    simp only [aEc, Option.some.injEq] at hc
    cases hc
    exact ⟨_, rfl, by rw [copyAt_eq]; exact h.put a (fun A hA => h d A hA)⟩
  | set2 a x y =>
    simp only [aEc, Option.some.injEq] at hc
    obtain ⟨m', e, hm⟩ := hset a _ _ _ _ _ hc
    refine ⟨m', ?_, hm⟩
    rw [ecStep, ← e, set2At]
    congr 2
    funext k
    simp only [Src.read]
    unfold Mem.setX Mem.setY Mem.setZ Mem.put
    by_cases hk : k = ob a <;> simp [hk]
  | set3 a x y w =>
    simp only [aEc, Option.some.injEq] at hc
    obtain ⟨m', e, hm⟩ := hset a _ _ _ _ _ hc
    refine ⟨m', ?_, hm⟩
    rw [ecStep, ← e, set3At]
    congr 2
    funext k
    simp only [Src.read]
    unfold Mem.setX Mem.setY Mem.setZ Mem.put
    by_cases hk : k = ob a <;> simp [hk]
  | clear a =>
    simp only [aEc, Option.some.injEq] at hc
    cases hc
    exact ⟨_, rfl, by rw [clearAt_eq]; exact h.put a (fun A hA => by cases hA; exact rep_clear)⟩
  | dbl a =>
    obtain ⟨A, -, hA, e⟩ := one hc
    cases e
    exact ⟨_, rfl, by rw [dblAt_eq]; exact h.put a (fun B hB => by cases hB; exact rep_dbl hb hA)⟩
  | neg a =>
    obtain ⟨A, -, hA, e⟩ := one hc
    cases e
    exact ⟨_, rfl, by rw [negAt_eq]; exact h.put a (fun B hB => by cases hB; exact rep_neg hA)⟩
  | add a d =>
    obtain ⟨A, D, hA, hD, e⟩ := two hc
    cases e
    exact ⟨_, rfl, by rw [addAt_eq]; exact h.put a (fun B hB => by cases hB; exact rep_add hb _ hA hD)⟩
  | sub a d =>
    obtain ⟨A, D, hA, hD, e⟩ := two hc
    cases e
    refine ⟨_, rfl, ?_⟩
    have h0 : (0 : ℕ) ≠ ob a := by unfold ob; omega
    rw [subAt_eq _ _ _ _ _ h0 h0]
    refine h.upd a (fun B hB => ?_) (fun k hk hk' => ?_)
    · cases hB; rw [put_same]; exact rep_sub hb _ hA hD
    · rw [put_other _ hk', put_other _ hk]
  | mul a k =>
    simp only [aEc] at hc
    split at hc
    · cases hc
    rename_i hk
    obtain ⟨A, -, hA, e⟩ := one hc
    cases e
    have h0 : (0 : ℕ) ≠ ob a := by unfold ob; omega
    obtain ⟨m', e, hr, hm⟩ := scalarMultMpz_rep hb m h0 (not_lt.1 hk) (hz k) hA
    refine ⟨m', ?_, h.upd a (fun B hB => by cases hB; exact hr) hm⟩
    rw [ecStep, e, Res.bind_ok]; rfl
  | equals a d =>
    obtain ⟨A, D, hA, hD, e⟩ := two hc
    cases e
    refine ⟨(equalsAt m (ob a) (ob d)).1, ?_, ?_⟩
    · rw [ecStep, equalsAt_eq m _ _ hA hD]
      congr 3
      rw [Bool.eq_iff_iff, eq_spec hA hD, decide_eq_true_iff]
    · intro k B hB
      exact normalizeAt_rep _ (normalizeAt_rep _ (h k B hB))
  | isZero a =>
    obtain ⟨A, -, hA, e⟩ := one hc
    cases e
    refine ⟨m, ?_, h⟩
    rw [ecStep]
    congr 3
    rw [Bool.eq_iff_iff, decide_eq_true_iff, isInf, LawfulFF.isZero_iff]
    rcases hA with ⟨h1, h2⟩ | ⟨h1, h2, h3⟩
    · simp [h1, h2]
    · simp only [h1, false_iff]; rw [h3]; exact WeierstrassCurve.Affine.Point.some_ne_zero h2
  | isValid a =>
    obtain ⟨A, -, hA, e⟩ := one hc
    cases e
    refine ⟨m, ?_, h⟩
    rw [ecStep, (hv _).2 (hA.valid hb)]
  | toString a =>
    obtain ⟨A, -, hA, e⟩ := one hc
    cases e
    refine ⟨_, rfl, ?_⟩
    split
    · exact h
    · intro k B hB
      exact normalizeAt_rep _ (h k B hB)

end

/-! ### Integers and field elements -/

theorem upd_eq {α : Type} (f : ℕ → α) (a : ℕ) (v : α) : upd f a v = Function.update f a v := by
  funext k; unfold upd Function.update; by_cases h : k = a <;> simp [h]

theorem mpzPut_sim {m : ℕ → ℤ} (hf : ∀ k, Fits (m k)) {a : ℕ} {z : ℤ} {m' : ℕ → ℤ} {out : Out}
    (h : aMpzPut m a z = some (m', out)) : mpzPut m a z = .ok (m', out) ∧ ∀ k, Fits (m' k) := by
  unfold aMpzPut at h
  split at h
  · rename_i hz
    cases h
    unfold mpzPut
    rw [if_pos hz, upd_eq]
    refine ⟨rfl, fun k => ?_⟩
    by_cases e : k = a
    · subst e; rw [Function.update_self]; exact hz
    · rw [Function.update_of_ne e]; exact hf k
  · cases h

theorem mpzStep_sim {m : ℕ → ℤ} (hf : ∀ k, Fits (m k)) (c : MpzCall) {m' : ℕ → ℤ} {out : Out}
    (h : aMpz m c = some (m', out)) : mpzStep m c = .ok (m', out) ∧ ∀ k, Fits (m' k) := by
  cases c with
  | set a z => exact mpzPut_sim hf h
  | add a b => exact mpzPut_sim hf h
  | sub a b => exact mpzPut_sim hf h
  | mul a b => exact mpzPut_sim hf h
  | mod a b =>
    simp only [aMpz] at h
    split at h
    · cases h
    · rename_i hb
      rw [mpzStep, if_neg hb]; exact mpzPut_sim hf h
  | equals a b =>
    simp only [aMpz, Option.some.injEq] at h
    cases h
    exact ⟨by rw [mpzStep], hf⟩
  | compareTo a b =>
    simp only [aMpz, Option.some.injEq] at h
    cases h
    refine ⟨?_, hf⟩
    rw [mpzStep]
    congr 3
    split
    · rename_i h1; rw [Int.sign_eq_neg_one_of_neg (by omega)]
    · split
      · rename_i h1 h2; rw [h2, sub_self]; rfl
      · rw [Int.sign_eq_one_of_pos (by omega)]

theorem fStep_sim {K : Type} [Field K] {eq : K → K → Bool} (he : ∀ x y, eq x y = true ↔ x = y) {z : ℕ → ℤ}
    (hz : ∀ k, Fits (z k)) (m : ℕ → K) (c : FCall) {m' : ℕ → K} {out : Out} (h : aField z m c = some (m', out)) :
    fStep eq z m c = .ok (m', out) := by
  cases c with
  | power a k =>
    simp only [aField] at h
    split at h
    · cases h
    · rename_i hk
      cases h
      rw [fStep, powMpz_eq _ (not_lt.1 hk) (hz k), Res.bind_ok, upd_eq, ← zpow_natCast, Int.toNat_of_nonneg (not_lt.1 hk)]
      rfl
  | equals a b =>
    simp only [aField, Option.some.injEq] at h
    cases h
    rw [fStep]
    congr 3
    rw [Bool.eq_iff_iff, he]
    exact (@decide_eq_true_iff _ (Classical.propDecidable _)).symm
  | _ =>
    simp only [aField, Option.some.injEq] at h
    cases h
    rw [fStep, upd_eq]

theorem feInt_eq {i : ℤ} (h1 : -2 ^ 31 < i) (h2 : i < 2 ^ 31) : feInt i = .ok (i : Fe) := by
  obtain ⟨y, e, hy, hr⟩ := Fp.setInt_spec h1 h2
  unfold feInt
  rw [e]
  dsimp only
  rw [dif_pos hy]
  have : (⟨y, hy⟩ : Fe) = (i : Fe) := Fe.toZ_inj (hr.trans (Fe.toZ_intCast i).symm)
  rw [this]

end Verif.Java
