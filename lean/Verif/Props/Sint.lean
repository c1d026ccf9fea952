import Verif.Sint.Lemmas
import Verif.Props.Text
import Mathlib.Data.Rat.Floor
import Mathlib.Tactic.FieldSimp

/-! Signed integers `Vsint` (C14, C15, C56).  `m` is the memory of objects; the arguments of an operation may be the same
object in any combination. -/

namespace Verif

open Sint

theorem pow9 : (2 : ℕ) ^ 576 = B64 ^ 9 := by decide +kernel
theorem pow8 : (2 : ℕ) ^ 512 = B64 ^ 8 := by decide +kernel

/-! ### C14 -/

/-- C14: `add` stores the sum, or exits exactly when its magnitude does not fit. -/
theorem C14_add (m : Mem) (out x y : ℕ) (hx : WF (m x).v) (hy : WF (m y).v) :
    ((toInt (m x) + toInt (m y)).natAbs < 2 ^ 576 → ∃ z : Sint, WF z.v ∧ toInt z = toInt (m x) + toInt (m y) ∧
      Sint.add m out x y = .ok (Function.update m out z)) ∧
    (2 ^ 576 ≤ (toInt (m x) + toInt (m y)).natAbs → Sint.add m out x y = .exit) := by
  rw [pow9, add_eq]
  obtain ⟨h1, h2⟩ := addP_spec hx hy
  refine ⟨fun h => ?_, fun h => by rw [h2 h]; rfl⟩
  obtain ⟨z, e, wz, vz⟩ := h1 h
  exact ⟨z, wz, vz, by rw [e]; rfl⟩

/-- C14: `sub` stores the difference, or exits exactly when its magnitude does not fit. -/
theorem C14_sub (m : Mem) (out x y : ℕ) (hx : WF (m x).v) (hy : WF (m y).v) :
    ((toInt (m x) - toInt (m y)).natAbs < 2 ^ 576 → ∃ z : Sint, WF z.v ∧ toInt z = toInt (m x) - toInt (m y) ∧
      Sint.sub m out x y = .ok (Function.update m out z)) ∧
    (2 ^ 576 ≤ (toInt (m x) - toInt (m y)).natAbs → Sint.sub m out x y = .exit) := by
  rw [pow9, sub_eq]
  obtain ⟨h1, h2⟩ := subP_spec hx hy
  refine ⟨fun h => ?_, fun h => by rw [h2 h]; rfl⟩
  obtain ⟨z, e, wz, vz⟩ := h1 h
  exact ⟨z, wz, vz, by rw [e]; rfl⟩

/-- C14: `mul` stores the product, or exits exactly when the numbers of words add up to more than 9. -/
theorem C14_mul (m : Mem) (out x y : ℕ) (hx : WF (m x).v) (hy : WF (m y).v) :
    ((m x).v.length + (m y).v.length ≤ 9 → ∃ z : Sint, WF z.v ∧ toInt z = toInt (m x) * toInt (m y) ∧
      Sint.mul m out x y = .ok (Function.update m out z)) ∧
    (9 < (m x).v.length + (m y).v.length → Sint.mul m out x y = .exit) := by
  rw [mul_eq]
  obtain ⟨h1, h2⟩ := mulP_spec hx hy
  refine ⟨fun h => ?_, fun h => by rw [h2 h]; rfl⟩
  obtain ⟨z, e, wz, vz⟩ := h1 h
  exact ⟨z, wz, vz, by rw [e]; rfl⟩

/-- C14: `neg`. -/
theorem C14_neg (m : Mem) (out x : ℕ) (hx : WF (m x).v) : ∃ z : Sint, WF z.v ∧ toInt z = -toInt (m x) ∧
    Sint.negate m out x = Function.update m out z :=
  ⟨⟨(m x).v, !(m x).neg⟩, hx, toInt_not _, negate_eq m out x⟩

/-- C14: `shl` multiplies by a power of two, or exits for capacity. -/
theorem C14_shl (m : Mem) (out x n : ℕ) (hx : WF (m x).v) :
    ((toInt (m x) * 2 ^ n).natAbs < 2 ^ 576 → (toInt (m x) ≠ 0 ∨ n < 576) → ∃ z : Sint, WF z.v ∧ toInt z = toInt (m x) * 2 ^ n ∧
      Sint.shl m out x n = .ok (Function.update m out z)) ∧
    ((2 ^ 576 ≤ (toInt (m x) * 2 ^ n).natAbs ∨ (toInt (m x) = 0 ∧ 576 ≤ n)) → Sint.shl m out x n = .exit) := by
  have hn : (toInt (m x) * 2 ^ n).natAbs = val (m x).v * 2 ^ n := by
    rw [Int.natAbs_mul, Int.natAbs_pow]
    congr 1
    unfold toInt; split <;> omega
  have h0 : toInt (m x) = 0 ↔ val (m x).v = 0 := by unfold toInt; split <;> omega
  rw [hn, Ne, h0, pow9, shl_eq]
  obtain ⟨h1, h2, h3⟩ := Vuint.shl_spec n hx
  refine ⟨fun h h' => ?_, ?_⟩
  · obtain ⟨z, e, wz, vz⟩ := h1 h h'
    refine ⟨⟨z, (m x).neg⟩, wz, ?_, by rw [e]; rfl⟩
    unfold toInt
    dsimp only
    rw [vz]
    push_cast
    split <;> ring
  · rintro (h | ⟨h, h'⟩)
    · rw [h2 h]; rfl
    · rw [h3 h h']; rfl

/-- C14: `shr` divides a non-negative number; a negative one makes the program exit. -/
theorem C14_shr (m : Mem) (out x n : ℕ) (hx : WF (m x).v) :
    (0 ≤ toInt (m x) → ∃ z : Sint, WF z.v ∧ toInt z = toInt (m x) / 2 ^ n ∧ Sint.shr m out x n = .ok (Function.update m out z)) ∧
    (toInt (m x) < 0 → Sint.shr m out x n = .exit) := by
  have hz := isZero_spec hx
  refine ⟨fun h => ?_, fun h => ?_⟩
  · by_cases h0 : Sint.isZero (m x) = true
    · refine ⟨⟨[0], false⟩, by decide, ?_, ?_⟩
      · rw [hz.1 h0]; simp [toInt, val]
      · unfold Sint.shr; rw [if_pos h0, clear_eq]
    · have hne : toInt (m x) ≠ 0 := fun h => h0 (hz.2 h)
      have hneg : (m x).neg = false := by
        by_contra hc
        rw [Bool.not_eq_false] at hc
        unfold toInt at h hne
        rw [hc, if_pos rfl] at h hne
        omega
      rw [Bool.not_eq_true] at h0
      obtain ⟨z, e, wz, vz⟩ := Vuint.shr_spec n hx
      refine ⟨⟨z, false⟩, wz, ?_, by rw [shr_eq m out x n h0 hneg, e]; rfl⟩
      unfold toInt
      rw [hneg, vz]
      simp
  · unfold Sint.shr
    have h0 : ¬Sint.isZero (m x) = true := fun h0 => by have := hz.1 h0; omega
    have hneg : (m x).neg = true := by
      by_contra hc
      rw [Bool.not_eq_true] at hc
      unfold toInt at h
      rw [hc] at h
      simp at h
      omega
    rw [if_neg h0, if_pos hneg]

/-- C14: the comparison is that of the integers; -0 equals 0. -/
theorem C14_compare {a b : Sint} (ha : WF a.v) (hb : WF b.v) :
    (Sint.compare a b < 0 ↔ toInt a < toInt b) ∧ (Sint.compare a b = 0 ↔ toInt a = toInt b) ∧
    (Sint.compare a b > 0 ↔ toInt a > toInt b) ∧ (Sint.isZero a = true ↔ toInt a = 0) ∧
    (Sint.isNegative a = true ↔ toInt a < 0) := by
  have h := compare_spec ha hb
  have hz := isZero_spec ha
  refine ⟨by omega, by omega, by omega, hz, ?_⟩
  unfold isNegative
  rw [Bool.and_eq_true, Bool.not_eq_true', ← Bool.not_eq_true, hz]
  unfold toInt
  split <;> simp [*]

/-- C14: constructors from built-in integers; the smallest ones are undefined. -/
theorem C14_set (m : Mem) (i : ℕ) (x : ℤ) :
    (-2 ^ 31 < x → x < 2 ^ 31 → ∃ z, Sint.ofInt x = .ok z ∧ WF z.v ∧ toInt z = x) ∧ Sint.ofInt (-2 ^ 31) = .ub ∧
    (-2 ^ 63 < x → x < 2 ^ 63 → ∃ z : Sint, WF z.v ∧ toInt z = x ∧ Sint.setInt64 m i x = .ok (Function.update m i z)) ∧
    Sint.setInt64 m i (-2 ^ 63) = .ub := by
  have wf : ∀ n : ℕ, n < 2 ^ 64 → WF [n] := fun n hn =>
    ⟨by simp, by simp, fun w hw => by rw [List.mem_singleton] at hw; omega, .inl rfl⟩
  have hval : ∀ x : ℤ, toInt ⟨[x.natAbs], decide (x < 0)⟩ = x := by
    intro x
    have : val [x.natAbs] = x.natAbs := by simp
    unfold toInt
    dsimp only
    rw [this]
    by_cases h : x < 0
    · rw [if_pos (by simpa using h)]; omega
    · rw [if_neg (by simpa using h)]; omega
  refine ⟨fun h1 h2 => ?_, by unfold Sint.ofInt; rw [if_neg (by norm_num)], fun h1 h2 => ?_,
    by unfold Sint.setInt64; rw [if_neg (by norm_num)]⟩
  · exact ⟨⟨[x.natAbs], decide (x < 0)⟩, by unfold Sint.ofInt; rw [if_pos ⟨h1, h2⟩]; rfl, wf _ (by omega), hval x⟩
  · unfold Sint.setInt64
    rw [if_pos ⟨h1, h2⟩]
    refine ⟨⟨[x.natAbs], decide (x < 0)⟩, wf _ (by omega), hval x, ?_⟩
    dsimp only
    have e : (setNeg m i (decide (x < 0)) i).neg = decide (x < 0) := by unfold setNeg; rw [Function.update_self]
    have e2 : (if decide (x < 0) = true then -x else x).toNat = x.natAbs := by
      by_cases h : x < 0
      · rw [if_pos (by simpa using h)]; omega
      · rw [if_neg (by simpa using h)]; omega
    rw [e, e2]
    unfold setV setNeg
    rw [Function.update_idem, Function.update_self]
    rfl

/-- two objects: 0 is -13, every other one is 5 -/
def exM : Mem := fun i => if i = 0 then ⟨[13], true⟩ else ⟨[5], false⟩

example : WF (exM 0).v ∧ toInt (exM 0) = -13 ∧
    (Sint.add exM 0 0 0 >>= fun m => .ok (toInt (m 0))) = .ok (-26) ∧ (Sint.sub exM 1 1 0 >>= fun m => .ok (toInt (m 1))) = .ok 18 ∧
    (Sint.mul exM 0 0 1 >>= fun m => .ok (toInt (m 0))) = .ok (-65) ∧ toInt (Sint.negate exM 0 0 0) = 13 ∧
    (Sint.shl exM 0 0 65 >>= fun m => .ok (toInt (m 0))) = .ok (-13 * 2 ^ 65) ∧ Sint.compare (exM 0) (exM 1) = -1 ∧
    Sint.compare ⟨[0], true⟩ ⟨[0], false⟩ = 0 := by decide +kernel

/-- C14: `set(value_type)` and `set(const uint64_t*, size_t)` keep the old sign: after storing 7 into an object that held
-13 it holds -7. -/
theorem C14_set_keeps_sign : toInt (Sint.setUnit exM 0 7 0) = -7 ∧
    (Sint.setUnits exM 0 [7] >>= fun m => .ok (toInt (m 0))) = .ok (-7) := by decide +kernel

/-! ### C15 -/

theorem floor_eq (X Y : ℤ) (h : Y ≠ 0) : ⌊(X : ℚ) / Y⌋ = X.fdiv Y := by
  rw [Int.floor_eq_iff]
  rcases lt_or_gt_of_ne h with hn | hp
  · obtain ⟨e, a, b⟩ := (Int.fdiv_fmod_unique' (a := X) hn).1 ⟨rfl, rfl⟩
    have hn' : (Y : ℚ) < 0 := by exact_mod_cast hn
    rw [le_div_iff_of_neg hn', div_lt_iff_of_neg hn']
    generalize X.fdiv Y = q at *
    generalize X.fmod Y = r at *
    refine ⟨?_, ?_⟩
    · have : X ≤ q * Y := by rw [← e]; linarith [mul_comm q Y]
      exact_mod_cast this
    · have : (q + 1) * Y < X := by rw [← e]; linarith [mul_comm q Y, add_mul q 1 Y, one_mul Y]
      exact_mod_cast this
  · obtain ⟨e, a, b⟩ := (Int.fdiv_fmod_unique (a := X) hp).1 ⟨rfl, rfl⟩
    have hp' : (0 : ℚ) < Y := by exact_mod_cast hp
    rw [le_div_iff₀ hp', div_lt_iff₀ hp']
    generalize X.fdiv Y = q at *
    generalize X.fmod Y = r at *
    refine ⟨?_, ?_⟩
    · have : q * Y ≤ X := by rw [← e]; linarith [mul_comm q Y]
      exact_mod_cast this
    · have : X < (q + 1) * Y := by rw [← e]; linarith [mul_comm q Y, add_mul q 1 Y, one_mul Y]
      exact_mod_cast this

/-- C15: `div` with y ≠ 0 stores the floor quotient (if q is given) and the remainder x - q y; capacity: the magnitude of y
has at most 8 words or x is not larger.  x and y may coincide with q or r. -/
theorem C15_div (m : Mem) (q : Option ℕ) (r x y : ℕ) (hq : q ≠ some r) (hx : WF (m x).v) (hy : WF (m y).v)
    (h0 : toInt (m y) ≠ 0) (hc : (toInt (m y)).natAbs < 2 ^ 512 ∨ (toInt (m x)).natAbs ≤ (toInt (m y)).natAbs) :
    ∃ m', Sint.div m q r x y = .ok (true, m') ∧ WF (m' r).v ∧
      toInt (m' r) = toInt (m x) - toInt (m y) * ⌊(toInt (m x) : ℚ) / toInt (m y)⌋ ∧
      (∀ i, q = some i → WF (m' i).v ∧ toInt (m' i) = ⌊(toInt (m x) : ℚ) / toInt (m y)⌋) ∧
      ∀ j, j ≠ r → q ≠ some j → m' j = m j := by
  rw [pow8] at hc
  obtain ⟨Q, R, e, wQ, wR, vQ, vR⟩ := (Sint.div_spec m q r x y hq hx hy).2.1 h0 hc
  rw [floor_eq _ _ h0, ← vQ]
  refine ⟨_, e, ?_, ?_, ?_, ?_⟩
  · unfold put; rw [Function.update_self]; exact wR
  · unfold put; rw [Function.update_self, vR, vQ, Int.fmod_def]
  · rintro i rfl
    have hir : i ≠ r := fun h => hq (by rw [h])
    unfold put
    rw [Function.update_of_ne hir]
    dsimp only
    rw [Function.update_self]
    exact ⟨wQ, rfl⟩
  · intro j hj hqj
    unfold put
    rw [Function.update_of_ne hj]
    cases q with
    | none => rfl
    | some q => dsimp only; rw [Function.update_of_ne (fun h => hqj (by rw [h]))]

/-- C15: the remainder is zero or has the sign of y and is smaller in magnitude. -/
theorem C15_remainder (m : Mem) (q : Option ℕ) (r x y : ℕ) (hq : q ≠ some r) (hx : WF (m x).v) (hy : WF (m y).v)
    (h0 : toInt (m y) ≠ 0) {m' : Mem} (h : Sint.div m q r x y = .ok (true, m')) :
    (toInt (m' r)).natAbs < (toInt (m y)).natAbs ∧ (toInt (m' r) = 0 ∨ (toInt (m' r) < 0 ↔ toInt (m y) < 0)) ∧
    toInt (m y) ∣ toInt (m x) - toInt (m' r) := by
  obtain ⟨-, h2, h3⟩ := Sint.div_spec m q r x y hq hx hy
  by_cases hc : (toInt (m y)).natAbs < B64 ^ 8 ∨ (toInt (m x)).natAbs ≤ (toInt (m y)).natAbs
  · obtain ⟨Q, R, e, wQ, wR, vQ, vR⟩ := h2 h0 hc
    rw [h] at e
    injection e with e
    injection e with _ e
    have hr : toInt (m' r) = (toInt (m x)).fmod (toInt (m y)) := by
      rw [e]; unfold put; rw [Function.update_self, vR]
    rw [hr]
    clear h2 h3
    have hd : toInt (m y) ∣ toInt (m x) - (toInt (m x)).fmod (toInt (m y)) := by
      rw [Int.fmod_def, sub_sub_cancel]; exact dvd_mul_right _ _
    rcases lt_or_gt_of_ne h0 with hn | hp
    · obtain ⟨-, a, b⟩ := (Int.fdiv_fmod_unique' (a := toInt (m x)) hn).1 ⟨rfl, rfl⟩
      exact ⟨by omega, by omega, hd⟩
    · obtain ⟨-, a, b⟩ := (Int.fdiv_fmod_unique (a := toInt (m x)) hp).1 ⟨rfl, rfl⟩
      exact ⟨by omega, by omega, hd⟩
  · rw [not_or, not_lt, not_le] at hc
    rw [h3 hc.1 hc.2] at h
    cases h

/-- C15: division by zero returns false and changes nothing; larger divisors of 9 words exit. -/
theorem C15_other (m : Mem) (q : Option ℕ) (r x y : ℕ) (hq : q ≠ some r) (hx : WF (m x).v) (hy : WF (m y).v) :
    (toInt (m y) = 0 → Sint.div m q r x y = .ok (false, m)) ∧
    (2 ^ 512 ≤ (toInt (m y)).natAbs → (toInt (m y)).natAbs < (toInt (m x)).natAbs → Sint.div m q r x y = .exit) := by
  obtain ⟨h1, -, h3⟩ := Sint.div_spec m q r x y hq hx hy
  rw [pow8]
  exact ⟨h1, h3⟩

example : (Sint.div exM (some 0) 1 0 1 >>= fun m => .ok (toInt (m.2 0), toInt (m.2 1))) = .ok (-3, 2) ∧
    (Sint.div exM (some 1) 0 1 0 >>= fun m => .ok (toInt (m.2 1), toInt (m.2 0))) = .ok (-1, -8) ∧
    (Sint.div exM none 0 0 1 >>= fun m => .ok (toInt (m.2 0), toInt (m.2 1))) = .ok (2, 5) := by decide +kernel

/-! ### C56 -/

open Text

theorem set10 {s : List Char} (h : s = ['0'] ∨ s.head? ≠ some '0') : set s 10 = set s := by
  have hp : ∀ b, setPrefix s b = .ok (b, []) := by
    intro b
    unfold setPrefix
    split
    · rcases h with h | h
      · simp at h
      · simp at h
    · rfl
  unfold Text.set
  rw [hp, hp, Res.bind_ok, Res.bind_ok]
  rfl

theorem digitLoop_neg : ∀ (l acc : List Char), acc ≠ [] → digitLoop true l acc = digitLoop false l acc := by
  intro l
  induction l with
  | nil => intro acc _; rfl
  | cons c l ih =>
    intro acc h
    unfold digitLoop
    have : digitOk true acc c = digitOk false acc c := by
      unfold digitOk
      have : acc.isEmpty = false := by simpa using h
      rw [this]; simp
    rw [this, ih _ (by simp)]

/-- C56: printing a signed number and parsing the text gives the same object, sign of zero included, if it has at most 8
words. -/
theorem C56_round {x : Sint} (hx : WF x.v) (hl : x.v.length ≤ 8) : ∃ s, Sint.toString x 10 = .ok s ∧ Sint.setStr s = .ok x ∧
    ∀ ws rest, Blank ws → NotDigit rest → Sint.read ⟨ws ++ (s ++ rest), false⟩ = .ok (x, ⟨rest, rest.isEmpty⟩) := by
  obtain ⟨v, n⟩ := x
  dsimp only at hx hl
  obtain ⟨t, e, h, -⟩ := C08_round hx
  obtain rfl := Res.ok.inj ((C08_toString hx).symm.trans e)
  have h2 := (toDigits_props (b := 10) (by norm_num) (by norm_num) (val v)).2
  have h0 : Nat.toDigits 10 (val v) = ['0'] ∨ (Nat.toDigits 10 (val v)).head? ≠ some '0' := by
    by_cases hv : val v = 0
    · left; rw [hv]; decide
    · right
      obtain ⟨c, r, e, hc⟩ := toDigits_head (b := 10) (by norm_num) (by norm_num) _ (Nat.pos_of_ne_zero hv)
      rw [e]; simpa using hc
  have hs := (set10 h0).trans (h hl)
  obtain ⟨c, r, ecr⟩ := List.exists_cons_of_ne_nil (Nat.toDigits_ne_nil (n := val v) (b := 10))
  have hne : c ≠ '-' := by
    rintro rfl
    have := h2 '-' (by rw [ecr]; simp)
    revert this; decide
  have hd16 : ∀ d ∈ Nat.toDigits 10 (val v), isDig 16 d = true := fun d hd => isDig_mono (h2 d hd)
  cases n
  · refine ⟨_, by unfold Sint.toString; rw [if_neg Bool.false_ne_true, C08_toString hx], ?_⟩
    have hset : Sint.setStr (Nat.toDigits 10 (val v)) = .ok ⟨v, false⟩ := by
      rw [ecr] at hs ⊢
      unfold Sint.setStr
      split
      · rename_i h; rw [List.cons.injEq] at h; exact absurd h.1 hne
      · rw [hs]; rfl
    refine ⟨hset, fun ws rest hw hr => ?_⟩
    unfold Sint.read getDigits
    dsimp only
    rw [if_neg Bool.false_ne_true, dropWhile_spaces hw.space]
    have hc := hd16 c (by rw [ecr]; simp)
    have e1 : digitLoop true ((Nat.toDigits 10 (val v) ++ rest).dropWhile isSpace) [] = (Nat.toDigits 10 (val v), ⟨rest, rest.isEmpty⟩) := by
      rw [ecr, List.cons_append, List.dropWhile_cons_of_neg (by rw [isDig_not_space hc]; simp)]
      unfold digitLoop
      rw [if_pos (by
        have := (digitOk_iff [] c).2 (.inl hc)
        unfold digitOk at this ⊢
        simp only [Bool.or_eq_true] at this ⊢
        rcases this with h | h
        · exact .inl h
        · simp at h), digitLoop_neg _ _ (by simp),
        digitLoop_spec hr.stops _ _ (fun d hd => hd16 d (by rw [ecr]; simp [hd]))]
      rfl
    rw [e1]
    dsimp only
    rw [hset]; rfl
  · refine ⟨'-' :: Nat.toDigits 10 (val v), by unfold Sint.toString; rw [if_pos rfl]; dsimp only; rw [C08_toString hx]; rfl, ?_⟩
    have hset : Sint.setStr ('-' :: Nat.toDigits 10 (val v)) = .ok ⟨v, true⟩ := by
      show (set ((Nat.toDigits 10 (val v)).takeWhile (· ≠ '\x00')) 10 >>= _) = _
      rw [List.takeWhile_eq_self_iff.2, hs]
      · rfl
      · intro d hd
        have := h2 d hd
        simp only [ne_eq, decide_not, Bool.not_eq_true', decide_eq_false_iff_not]
        rintro rfl
        revert this; decide
    refine ⟨hset, fun ws rest hw hr => ?_⟩
    unfold Sint.read getDigits
    dsimp only
    rw [if_neg Bool.false_ne_true, dropWhile_spaces hw.space]
    have e1 : digitLoop true ((('-' :: Nat.toDigits 10 (val v)) ++ rest).dropWhile isSpace) [] =
        ('-' :: Nat.toDigits 10 (val v), ⟨rest, rest.isEmpty⟩) := by
      rw [List.cons_append, List.dropWhile_cons_of_neg (by decide)]
      unfold digitLoop
      rw [if_pos (by decide), digitLoop_neg _ _ (by simp), digitLoop_spec hr.stops _ _ hd16]
      rfl
    rw [e1]
    dsimp only
    rw [hset]; rfl

example : Sint.toString ⟨[7, 1], true⟩ 10 = .ok "-18446744073709551623".toList ∧
    Sint.read ⟨" -18446744073709551623;".toList, false⟩ = .ok (⟨[7, 1], true⟩, ⟨";".toList, false⟩) := by decide +kernel

/-- C56: hexadecimal text is printed but not accepted: the base defaults to 10. -/
theorem C56_hex_exits : Sint.toString ⟨[255], true⟩ 16 = .ok "-0xff".toList ∧ Sint.setStr "-0xff".toList = .exit := by
  decide +kernel

end Verif
