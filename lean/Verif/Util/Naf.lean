import Verif.Util.Bits
import Mathlib.Data.List.Count

/-! Digit strings for the Miller loop: `util::convertToBinary`, `convertToNAF`, `getGoodRepl` (bn.h:101-174).
Vectors are lists of digits, most significant first; indices are `size_t`. -/

namespace Verif.Naf

open Verif

/-- the loop of `convertToBinary` (bn.h:106-109): the i-th of len digits is bit len-1-i -/
def binLoop (x : List ℕ) (len : ℕ) : ℕ → List ℤ → Res (List ℤ)
  | 0, v => .ok v
  | k + 1, v => do
    let b ← Vuint.testBit x (len - 1 - v.length)
    binLoop x len k (v ++ [if b then 1 else 0])

/-- `convertToBinary` (bn.h:101-110) -/
def toBinary (x : List ℕ) : Res (List ℤ) :=
  let len := Vuint.bitLen x
  binLoop x len len []

/-- `getContinuousVal` (bn.h:111-119); a read at or above `v.size()` is undefined -/
def contVal (v : List ℤ) (d : ℤ) : ℕ → Res ℕ
  | 0 => .ok 0
  | 1 => .ok 1
  | pos + 2 =>
    match v[pos + 2]? with
    | none => .ub
    | some a => if a ≠ d then .ok (pos + 2) else contVal v d (pos + 1)

/-- the loop of bn.h:133-135: v[i] = 0 for a ≤ i < a + n -/
def zeroFrom (v : List ℤ) (a : ℕ) : ℕ → List ℤ
  | 0 => v
  | n + 1 => zeroFrom (v.set a 0) (a + 1) n

/-- the loop of `convertToNAF` (bn.h:124-142).  The asserts of lines 127 and 130 are outcomes `ub`; for p = 0 the
next position is 2^64-1, the read there is undefined. -/
def nafLoop : ℕ → List ℤ → ℕ → Res (List ℤ)
  | 0, _, _ => .diverge
  | fuel + 1, v, pos => do
    let p ← contVal v 0 pos
    if p = 1 then .ok v
    else if v[p]? ≠ some 1 then .ub
    else do
      let q ← contVal v 1 p
      if q = 1 then .ok v
      else if v[q]? ≠ some 0 then .ub
      else if p - q ≤ 1 then
        if p = 0 then .ub else nafLoop fuel v (p - 1)
      else nafLoop fuel ((zeroFrom (v.set q 1) (q + 1) (p - (q + 1))).set p (-1)) q

/-- `convertToNAF` (bn.h:120-143); for the empty vector the first position is 2^64-1 -/
def toNaf (v : List ℤ) : Res (List ℤ) :=
  if v.length = 0 then .ub else nafLoop v.length v (v.length - 1)

/-- `getNumOfNonZeroElement` (bn.h:144-152) -/
def weight (v : List ℤ) : ℕ := v.foldl (fun w a => if a ≠ 0 then w + 1 else w) 0

/-- `getGoodRepl` (bn.h:158-174): the flag and the vector -/
def goodRepl (x : List ℕ) : Res (Bool × List ℤ) := do
  let bin ← toBinary x
  let naf ← toNaf bin
  if weight naf < weight bin then .ok (true, naf) else .ok (false, bin)

/-! ### Specification vocabulary and lemmas -/

/-- value of a digit string, most significant digit first -/
def value (ds : List ℤ) : ℤ := ds.foldl (fun a d => 2 * a + d) 0

theorem foldl_value (ds : List ℤ) : ∀ a : ℤ, ds.foldl (fun a d => 2 * a + d) a = a * 2 ^ ds.length + value ds := by
  induction ds with
  | nil => intro a; simp [value]
  | cons d ds ih =>
    intro a
    have : value (d :: ds) = d * 2 ^ ds.length + value ds := by
      show ds.foldl _ (2 * 0 + d) = _
      rw [ih]; ring
    rw [List.foldl_cons, ih, this, List.length_cons]; ring

theorem value_append (a b : List ℤ) : value (a ++ b) = value a * 2 ^ b.length + value b := by
  unfold value
  rw [List.foldl_append, foldl_value]; rfl

@[simp] theorem value_nil : value [] = 0 := rfl
@[simp] theorem value_single (d : ℤ) : value [d] = d := by simp [value]

theorem value_ones (k : ℕ) : value (List.replicate k 1) = 2 ^ k - 1 := by
  induction k with
  | zero => simp
  | succ k ih => rw [List.replicate_succ', value_append, ih]; simp; ring

theorem value_zeros (k : ℕ) : value (List.replicate k 0) = 0 := by
  induction k with
  | zero => simp
  | succ k ih => rw [List.replicate_succ', value_append, ih]; simp

theorem foldl_weight (v : List ℤ) : ∀ w : ℕ, v.foldl (fun w a => if a ≠ 0 then w + 1 else w) w = w + weight v := by
  induction v with
  | nil => intro w; simp [weight]
  | cons d v ih =>
    intro w
    have : weight (d :: v) = (if d ≠ 0 then 1 else 0) + weight v := by
      show v.foldl _ (if d ≠ 0 then 0 + 1 else 0) = _
      rw [ih]
    rw [List.foldl_cons, ih, this]
    split_ifs <;> omega

theorem weight_append (a b : List ℤ) : weight (a ++ b) = weight a + weight b := by
  unfold weight
  rw [List.foldl_append, foldl_weight]; rfl

theorem weight_cons (d : ℤ) (v : List ℤ) : weight (d :: v) = (if d ≠ 0 then 1 else 0) + weight v := by
  rw [show d :: v = [d] ++ v from rfl, weight_append]
  unfold weight; simp

theorem weight_filter (v : List ℤ) : weight v = (v.filter (· ≠ 0)).length := by
  induction v with
  | nil => rfl
  | cons d v ih =>
    rw [weight_cons, ih]
    by_cases h : d = 0
    · simp [h]
    · simp [h]; omega

theorem weight_replicate_one (k : ℕ) : weight (List.replicate k 1) = k := by
  rw [weight_filter]; simp

theorem weight_replicate_zero (k : ℕ) : weight (List.replicate k 0) = 0 := by
  rw [weight_filter]; simp

/-! ### binary digits -/

theorem binLoop_spec {x : List ℕ} (hx : Words x) {len : ℕ} (hlen : len ≤ 64 * x.length) :
    ∀ (k : ℕ) (v : List ℤ), v.length + k = len → value v = ((val x / 2 ^ k : ℕ) : ℤ) - ((val x / 2 ^ len : ℕ) : ℤ) * 2 ^ v.length →
      (∀ d ∈ v, d = 0 ∨ d = 1) →
      ∃ w, binLoop x len k v = .ok w ∧ w.length = len ∧ (∀ d ∈ w, d = 0 ∨ d = 1) ∧
        value w = (val x : ℤ) - ((val x / 2 ^ len : ℕ) : ℤ) * 2 ^ len := by
  intro k
  induction k with
  | zero =>
    intro v hl hv hd
    refine ⟨v, rfl, by omega, hd, ?_⟩
    rw [hv, show v.length = len from by omega]; simp
  | succ k ih =>
    intro v hl hv hd
    have hi : len - 1 - v.length = k := by omega
    have ht : Vuint.testBit x k = .ok ((val x).testBit k) := by
      unfold Vuint.testBit
      dsimp only
      rw [if_pos (by omega), mask_testBit, val_testBit hx (by omega)]
    unfold binLoop
    rw [hi, ht, Res.bind_ok]
    refine ih _ (by rw [List.length_append, List.length_singleton]; omega) ?_ ?_
    · rw [value_append, hv, value_single, List.length_append]
      simp only [List.length_singleton, pow_one]
      have h2 : val x / 2 ^ k = 2 * (val x / 2 ^ (k + 1)) + (if (val x).testBit k then 1 else 0) := by
        rw [Nat.testBit_eq_decide_div_mod_eq, pow_succ, ← Nat.div_div_eq_div_mul]
        simp only [decide_eq_true_eq]
        split_ifs <;> omega
      have h3 : ((if (val x).testBit k = true then 1 else 0 : ℕ) : ℤ) = if (val x).testBit k = true then 1 else 0 := by
        split_ifs <;> rfl
      rw [h2, Nat.cast_add, Nat.cast_mul, h3]
      push_cast
      ring
    · intro d hd'
      rw [List.mem_append, List.mem_singleton] at hd'
      rcases hd' with h | h
      · exact hd d h
      · rw [h]; split_ifs <;> simp

/-! ### non-adjacent form -/

theorem contVal_spec (v : List ℤ) (d : ℤ) : ∀ pos < v.length, ∃ p ≤ pos, contVal v d pos = .ok p ∧
    (∀ i, p < i → i ≤ pos → v[i]? = some d) ∧ (2 ≤ p → v[p]? ≠ some d) ∧ (1 ≤ pos → 1 ≤ p) := by
  intro pos
  induction pos with
  | zero => intro _; exact ⟨0, le_rfl, rfl, by omega, by omega, by omega⟩
  | succ n ih =>
    intro h
    cases n with
    | zero => exact ⟨1, le_rfl, rfl, by omega, by omega, by omega⟩
    | succ n =>
      unfold contVal
      rw [List.getElem?_eq_getElem (by omega)]
      dsimp only
      by_cases ha : v[n + 2] = d
      · rw [if_neg (not_not.2 ha)]
        obtain ⟨p, hp, hc, h1, h2, h3⟩ := ih (by omega)
        refine ⟨p, by omega, hc, ?_, h2, by omega⟩
        intro i hi hi'
        rcases Nat.lt_or_ge i (n + 2) with h' | h'
        · exact h1 i hi (by omega)
        · have : i = n + 2 := by omega
          subst this
          rw [List.getElem?_eq_getElem (by omega), ha]
      · rw [if_pos ha]
        refine ⟨n + 2, le_rfl, rfl, by omega, ?_, by omega⟩
        intro _ h'
        rw [List.getElem?_eq_getElem (by omega)] at h'
        exact ha (Option.some.inj h')

theorem zeroFrom_get (n : ℕ) : ∀ (v : List ℤ) (a i : ℕ), (zeroFrom v a n)[i]? =
    if a ≤ i ∧ i < a + n then (if i < v.length then some 0 else none) else v[i]? := by
  induction n with
  | zero => intro v a i; rw [if_neg (by omega)]; rfl
  | succ n ih =>
    intro v a i
    unfold zeroFrom
    rw [ih, List.length_set, List.getElem?_set]
    by_cases h1 : a = i
    · subst h1
      rw [if_neg (by omega), if_pos rfl, if_pos (by omega : a ≤ a ∧ a < a + (n + 1))]
    · rw [if_neg h1]
      by_cases h2 : a + 1 ≤ i ∧ i < a + 1 + n
      · rw [if_pos h2, if_pos (by omega : a ≤ i ∧ i < a + (n + 1))]
      · rw [if_neg h2, if_neg (by omega : ¬ (a ≤ i ∧ i < a + (n + 1)))]

theorem replace_get (v : List ℤ) {p q : ℕ} (hq : q < p) (hp : p < v.length) (i : ℕ) :
    ((zeroFrom (v.set q 1) (q + 1) (p - (q + 1))).set p (-1))[i]? =
    if i = q then some 1 else if i = p then some (-1) else if q < i ∧ i < p then some 0 else v[i]? := by
  have hlen : ∀ (n a : ℕ) (w : List ℤ), (zeroFrom w a n).length = w.length := by
    intro n
    induction n with
    | zero => intro a w; rfl
    | succ n ih => intro a w; unfold zeroFrom; rw [ih, List.length_set]
  rw [List.getElem?_set, zeroFrom_get, hlen, List.length_set, List.getElem?_set]
  by_cases h1 : i = q
  · subst h1
    rw [if_neg (by omega), if_neg (by omega), if_pos rfl, if_pos rfl, if_pos (by omega)]
  · rw [if_neg h1]
    by_cases h2 : i = p
    · subst h2
      rw [if_pos rfl, if_pos hp, if_pos rfl]
    · rw [if_neg (fun h => h2 h.symm), if_neg h2]
      by_cases h3 : q < i ∧ i < p
      · rw [if_pos (by omega), if_pos (by omega), if_pos h3]
      · rw [if_neg (by omega), if_neg h3, if_neg (fun h => h1 h.symm)]

theorem decomp (v : List ℤ) {p q : ℕ} (hq : q < p) (hp : p < v.length) (h0 : v[q]? = some 0)
    (h1 : ∀ i, q < i → i ≤ p → v[i]? = some 1) :
    v = v.take q ++ ([0] ++ (List.replicate (p - q) 1 ++ v.drop (p + 1))) := by
  apply List.ext_getElem?
  intro i
  have hl : (v.take q).length = q := by rw [List.length_take]; omega
  rcases Nat.lt_or_ge i q with h | h
  · rw [List.getElem?_append_left (by omega), List.getElem?_take_of_lt h]
  · rw [List.getElem?_append_right (by omega), hl]
    rcases Nat.eq_or_lt_of_le h with h' | h'
    · subst h'; simpa using h0
    · rw [List.getElem?_append_right (by simp; omega), List.length_singleton]
      rcases Nat.lt_or_ge p i with h2 | h2
      · rw [List.getElem?_append_right (by simp; omega), List.length_replicate, List.getElem?_drop]
        congr 1; omega
      · rw [List.getElem?_append_left (by simp; omega), h1 i h' h2, List.getElem?_replicate, if_pos (by omega)]

theorem decomp' (v : List ℤ) {p q : ℕ} (hq : q + 1 < p) (hp : p < v.length) :
    (zeroFrom (v.set q 1) (q + 1) (p - (q + 1))).set p (-1) =
      v.take q ++ ([1] ++ (List.replicate (p - q - 1) 0 ++ ([-1] ++ v.drop (p + 1)))) := by
  apply List.ext_getElem?
  intro i
  rw [replace_get v (by omega) hp]
  have hl : (v.take q).length = q := by rw [List.length_take]; omega
  rcases Nat.lt_or_ge i q with h | h
  · rw [List.getElem?_append_left (by omega), List.getElem?_take_of_lt h, if_neg (by omega), if_neg (by omega), if_neg (by omega)]
  · rw [List.getElem?_append_right (by omega), hl]
    rcases Nat.eq_or_lt_of_le h with h' | h'
    · subst h'; simp
    · rw [if_neg (by omega), List.getElem?_append_right (by simp; omega), List.length_singleton]
      rcases Nat.lt_or_ge i p with h2 | h2
      · rw [List.getElem?_append_left (by simp; omega), List.getElem?_replicate, if_neg (by omega), if_pos ⟨h', h2⟩, if_pos (by omega)]
      · rw [List.getElem?_append_right (by simp; omega), List.length_replicate]
        rcases Nat.eq_or_lt_of_le h2 with h3 | h3
        · subst h3
          rw [if_pos rfl]
          have : p - q - 1 - (p - q - 1) = 0 := by omega
          rw [this]; rfl
        · rw [if_neg (by omega), if_neg (by omega), List.getElem?_append_right (by simp; omega), List.length_singleton,
            List.getElem?_drop]
          congr 1; omega

/-- what the loop maintains: the digits up to pos are untouched binary digits, the digits above are signed digits no
two of which are adjacent -/
structure Inv (v₀ v : List ℤ) (pos : ℕ) : Prop where
  len : v.length = v₀.length
  val : value v = value v₀
  wt : weight v ≤ weight v₀
  lo : ∀ i ≤ pos, v[i]? = some 0 ∨ v[i]? = some 1
  hi : ∀ i, pos < i → i < v.length → v[i]? = some 0 ∨ v[i]? = some 1 ∨ v[i]? = some (-1)
  sep : ∀ i, pos ≤ i → i + 1 < v.length → v[i]? = some 0 ∨ v[i + 1]? = some 0

/-- the shape of the result: from index k on no two adjacent digits are non-zero, the digits 2, ..., k-1 are all 1 -/
def Shape (v : List ℤ) (k : ℕ) : Prop :=
  2 ≤ k ∧ (∀ i, k ≤ i → i + 1 < v.length → v[i]? = some 0 ∨ v[i + 1]? = some 0) ∧
    (∀ i, 2 ≤ i → i < k → v[i]? = some 1) ∧ (∀ i < 2, v[i]? = some 0 ∨ v[i]? = some 1) ∧
    (2 < k → k < v.length → v[k]? = some 0)

theorem nafLoop_spec (v₀ : List ℤ) : ∀ (fuel : ℕ) (v : List ℤ) (pos : ℕ), Inv v₀ v pos → 1 ≤ pos → pos < fuel →
    pos < v.length → ∃ w k, nafLoop fuel v pos = .ok w ∧ w.length = v₀.length ∧ value w = value v₀ ∧
      weight w ≤ weight v₀ ∧ (∀ d ∈ w, d = 0 ∨ d = 1 ∨ d = -1) ∧ Shape w k := by
  intro fuel
  induction fuel with
  | zero => intro v pos _ _ h; omega
  | succ fuel ih =>
    intro v pos I h1 hf hlt
    have digits : ∀ d ∈ v, d = 0 ∨ d = 1 ∨ d = -1 := by
      intro d hd
      obtain ⟨i, hi, rfl⟩ := List.mem_iff_getElem.1 hd
      rcases Nat.lt_or_ge pos i with h | h
      · have := I.hi i h hi
        rw [List.getElem?_eq_getElem hi] at this
        simpa using this
      · have := I.lo i h
        rw [List.getElem?_eq_getElem hi] at this
        rcases this with h | h
        · left; simpa using h
        · right; left; simpa using h
    obtain ⟨p, hp, hc, hrun, hstop, hge⟩ := contVal_spec v 0 pos hlt
    unfold nafLoop
    rw [hc, Res.bind_ok]
    have hp1 := hge h1
    by_cases hp' : p = 1
    · -- only zeros down to index 2
      subst hp'
      rw [if_pos rfl]
      refine ⟨v, 2, rfl, I.len, I.val, I.wt, digits, le_rfl, ?_, by omega, fun i hi => I.lo i (by omega), by omega⟩
      intro i hi hi'
      rcases Nat.lt_or_ge pos i with h | h
      · exact I.sep i (by omega) hi'
      · left; exact hrun i (by omega) h
    · rw [if_neg hp']
      have hpv : v[p]? = some 1 := (I.lo p hp).resolve_left (hstop (by omega))
      rw [if_neg (not_not.2 hpv)]
      obtain ⟨q, hq, hc2, hrun2, hstop2, hge2⟩ := contVal_spec v 1 p (by omega)
      rw [hc2, Res.bind_ok]
      have hq1 := hge2 (by omega)
      -- separation from p on
      have sep' : ∀ i, p ≤ i → i + 1 < v.length → v[i]? = some 0 ∨ v[i + 1]? = some 0 := by
        intro i hi hi'
        rcases Nat.lt_or_ge i pos with h | h
        · right; exact hrun (i + 1) (by omega) (by omega)
        · exact I.sep i h hi'
      by_cases hq' : q = 1
      · subst hq'
        rw [if_pos rfl]
        refine ⟨v, p + 1, rfl, I.len, I.val, I.wt, digits, by omega, fun i hi hi' => sep' i (by omega) hi', ?_,
          fun i hi => I.lo i (by omega), ?_⟩
        · intro i hi hi'
          exact hrun2 i (by omega) (by omega)
        · intro _ hlt'
          rcases sep' p le_rfl hlt' with h | h
          · rw [hpv] at h; simp at h
          · exact h
      · rw [if_neg hq']
        have hqv : v[q]? = some 0 := (I.lo q (by omega)).resolve_right (hstop2 (by omega))
        rw [if_neg (not_not.2 hqv)]
        have hqp : q < p := by
          rcases Nat.eq_or_lt_of_le hq with h | h
          · subst h; rw [hpv] at hqv; simp at hqv
          · exact h
        by_cases hd : p - q ≤ 1
        · rw [if_pos hd, if_neg (by omega)]
          refine ih v (p - 1) ⟨I.len, I.val, I.wt, fun i hi => I.lo i (by omega), ?_, ?_⟩ (by omega) (by omega) (by omega)
          · intro i hi hi'
            rcases Nat.lt_or_ge pos i with h | h
            · exact I.hi i h hi'
            · rcases I.lo i h with h | h
              · exact Or.inl h
              · exact Or.inr (Or.inl h)
          · intro i hi hi'
            rcases Nat.lt_or_ge i p with h | h
            · have : i = q := by omega
              subst this; left; exact hqv
            · exact sep' i h hi'
        · rw [if_neg hd]
          have hpl : p < v.length := by omega
          have hdec := decomp v hqp hpl hqv (fun i hi hi' => hrun2 i hi hi')
          have hdec' := decomp' v (p := p) (q := q) (by omega) hpl
          have hg := replace_get v hqp hpl
          generalize hw : (zeroFrom (v.set q 1) (q + 1) (p - (q + 1))).set p (-1) = w at *
          have hlw : w.length = v.length := by
            have e := congrArg List.length hdec'
            have e' := congrArg List.length hdec
            simp only [List.length_append, List.length_replicate, List.length_singleton] at e e'
            omega
          obtain ⟨k, hk⟩ : ∃ k, p - q = k + 2 := ⟨p - q - 2, by omega⟩
          refine ih w q ⟨by rw [hlw, I.len], ?_, ?_, ?_, ?_, ?_⟩ (by omega) (by omega) (by omega)
          · rw [← I.val, hdec']
            conv_rhs => rw [hdec]
            simp only [value_append, List.length_append, List.length_replicate, List.length_singleton, value_single,
              value_ones, value_zeros, hk]
            have : k + 2 - 1 = k + 1 := by omega
            rw [this]
            ring
          · refine le_trans ?_ I.wt
            rw [hdec']
            conv_rhs => rw [hdec]
            simp only [weight_append, weight_replicate_one, weight_replicate_zero]
            have a1 : weight [0] = 0 := by decide
            have a2 : weight [1] = 1 := by decide
            have a3 : weight [-1] = 1 := by decide
            rw [a1, a2, a3]
            omega
          · intro i hi
            rw [hg]
            by_cases h : i = q
            · rw [if_pos h]; right; rfl
            · rw [if_neg h, if_neg (by omega), if_neg (by omega)]; exact I.lo i (by omega)
          · intro i hi hi'
            rw [hg, if_neg (by omega)]
            split_ifs with h2 h3
            · right; right; rfl
            · left; rfl
            · rcases Nat.lt_or_ge pos i with h | h
              · exact I.hi i h (by omega)
              · rcases I.lo i h with h | h
                · exact Or.inl h
                · exact Or.inr (Or.inl h)
          · intro i hi hi'
            rw [hg, hg]
            rcases Nat.lt_or_ge i p with h | h
            · rcases Nat.eq_or_lt_of_le hi with h' | h'
              · right
                rw [if_neg (by omega), if_neg (by omega), if_pos (by omega)]
              · left
                rw [if_neg (by omega), if_neg (by omega), if_pos (by omega)]
            · rcases Nat.eq_or_lt_of_le h with h' | h'
              · right
                rw [if_neg (by omega), if_neg (by omega), if_neg (by omega)]
                rcases sep' i h (by omega) with h2 | h2
                · subst h'; rw [hpv] at h2; simp at h2
                · exact h2
              · rw [if_neg (by omega), if_neg (by omega), if_neg (by omega), if_neg (by omega), if_neg (by omega), if_neg (by omega)]
                exact sep' i h (by omega)

theorem toNaf_spec {v : List ℤ} (h2 : 2 ≤ v.length) (hb : ∀ d ∈ v, d = 0 ∨ d = 1) :
    ∃ w k, toNaf v = .ok w ∧ w.length = v.length ∧ value w = value v ∧ weight w ≤ weight v ∧
      (∀ d ∈ w, d = 0 ∨ d = 1 ∨ d = -1) ∧ Shape w k := by
  unfold toNaf
  rw [if_neg (by omega)]
  refine nafLoop_spec v v.length v (v.length - 1) ⟨rfl, rfl, le_rfl, ?_, by omega, by omega⟩ (by omega) (by omega) (by omega)
  intro i hi
  rw [List.getElem?_eq_getElem (by omega)]
  simpa using hb _ (List.getElem_mem _)

end Verif.Naf
