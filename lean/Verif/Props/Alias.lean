import Verif.Mem.VuintLemmas5
import Verif.Props.Vuint
import Verif.Props.X64

/-!
Property theorems C12: `VuintT` arithmetic when output and operands are the same object.

Objects are places in one flat memory (Mem/Vuint.lean): the object at a has its words at a .. a+8 and its size at a+9.
`Mem.Apart o x` is `o = x ∨ o + 10 ≤ x ∨ x + 10 ≤ o`: the same object or two objects without a common word.  All theorems
leave open which of the objects coincide.
-/

namespace Verif
open Mem

/-- the object at a is a normalised representation of v -/
def Holds (m : ℕ → ℕ) (a v : ℕ) : Prop :=
  (1 ≤ m (a + 9) ∧ m (a + 9) ≤ 9) ∧ (∀ i, i < m (a + 9) → m (a + i) < 2 ^ 64) ∧ (m (a + 9) = 1 ∨ m (a + (m (a + 9) - 1)) ≠ 0) ∧
    num m a (m (a + 9)) = v

/-- m' differs from m only in the object at o -/
def OnlyObj (m m' : ℕ → ℕ) (o : ℕ) : Prop := ∀ i, (i < o ∨ o + 10 ≤ i) → m' i = m i

theorem holds_iff {m : ℕ → ℕ} {a v : ℕ} : Holds m a v ↔ WF (obj m a) ∧ val (obj m a) = v := by
  have hl : (obj m a).length = m (a + 9) := length_obj ..
  have hv : val (obj m a) = num m a (m (a + 9)) := val_rd ..
  have hg : ∀ i, i < m (a + 9) → (obj m a)[i]? = some (m (a + i)) := fun i hi => by
    have := rd_getElem? m a (m (a + 9)) i
    rwa [if_pos hi] at this
  have hlast : 1 ≤ m (a + 9) → (obj m a).getLast? = some (m (a + (m (a + 9) - 1))) := by
    intro h
    rw [List.getLast?_eq_getElem?, hl, hg _ (by omega)]
  have hw : Words (obj m a) ↔ ∀ i, i < m (a + 9) → m (a + i) < 2 ^ 64 := by
    constructor
    · intro h i hi
      exact h _ (List.mem_of_getElem? (hg i hi))
    · intro h w hw
      obtain ⟨i, hi⟩ := List.mem_iff_getElem?.mp hw
      have hlt : i < m (a + 9) := by
        rw [← hl]
        exact (List.getElem?_eq_some_iff.mp hi).1
      rw [hg i hlt, Option.some.injEq] at hi
      rw [← hi]
      exact h i hlt
  unfold Holds
  rw [hv, ← hw]
  constructor
  · rintro ⟨⟨h1, h2⟩, h3, h4, h5⟩
    refine ⟨⟨by omega, by omega, h3, ?_⟩, h5⟩
    rw [hl, hlast h1]
    rcases h4 with h4 | h4
    · exact Or.inl h4
    · exact Or.inr (by simpa using h4)
  · rintro ⟨⟨h1, h2, h3, h4⟩, h5⟩
    rw [hl] at h1 h2 h4
    refine ⟨⟨by omega, by omega⟩, h3, ?_, h5⟩
    rw [hlast (by omega)] at h4
    rcases h4 with h4 | h4
    · exact Or.inl h4
    · exact Or.inr (by simpa using h4)

section
variable {m : ℕ → ℕ} {o x y X Y : ℕ}

theorem impl_ok {r : Res (List ℕ)} {run : Res (ℕ → ℕ)} {v : ℕ} (h : Impl m o r run) (hr : ∃ z, r = .ok z ∧ WF z ∧ val z = v) :
    ∃ m', run = .ok m' ∧ Holds m' o v ∧ OnlyObj m m' o := by
  obtain ⟨z, e, wz, vz⟩ := hr
  rcases h with ⟨z', m', h1, h2, h3, h4⟩ | ⟨h1, -⟩ | ⟨h1, -⟩ <;> rw [e] at h1 <;> try cases h1
  exact ⟨m', h2, holds_iff.mpr (by rw [h3]; exact ⟨wz, vz⟩), h4⟩

theorem impl_exit {r : Res (List ℕ)} {run : Res (ℕ → ℕ)} (h : Impl m o r run) (hr : r = .exit) : run = .exit := by
  rcases h with ⟨z', m', h1, h2, h3, h4⟩ | ⟨h1, h2⟩ | ⟨h1, h2⟩ <;> rw [hr] at h1 <;> first | exact h2 | cases h1

theorem impl_ub {r : Res (List ℕ)} {run : Res (ℕ → ℕ)} (h : Impl m o r run) (hr : r = .ub) : run = .ub := by
  rcases h with ⟨z', m', h1, h2, h3, h4⟩ | ⟨h1, h2⟩ | ⟨h1, h2⟩ <;> rw [hr] at h1 <;> first | exact h2 | cases h1

/-- **C12** `add(out, x, y)`. -/
theorem C12_add (hx : Holds m x X) (hy : Holds m y Y) (ax : Apart o x) (ay : Apart o y) :
    (X + Y < 2 ^ 576 → ∃ m', add m o x y = .ok m' ∧ Holds m' o (X + Y) ∧ OnlyObj m m' o) ∧
    (2 ^ 576 ≤ X + Y → add m o x y = .exit) := by
  obtain ⟨wx, rfl⟩ := holds_iff.mp hx
  obtain ⟨wy, rfl⟩ := holds_iff.mp hy
  have h := add_mem wx wy ax ay
  exact ⟨fun hc => impl_ok h ((C01_add wx wy).1 hc), fun hc => impl_exit h ((C01_add wx wy).2 hc)⟩

/-- **C12** `add(out, x, (uint32_t) y)`. -/
theorem C12_add32 (hx : Holds m x X) (hy : y < 2 ^ 32) (ax : Apart o x) :
    (X + y < 2 ^ 576 → ∃ m', add32 m o x y = .ok m' ∧ Holds m' o (X + y) ∧ OnlyObj m m' o) ∧
    (2 ^ 576 ≤ X + y → add32 m o x y = .exit) := by
  obtain ⟨wx, rfl⟩ := holds_iff.mp hx
  have h := add32_mem (y := y) wx ax
  exact ⟨fun hc => impl_ok h ((C01_add32 wx hy).1 hc), fun hc => impl_exit h ((C01_add32 wx hy).2 hc)⟩

/-- **C12** `sub(out, x, y)`. -/
theorem C12_sub (hx : Holds m x X) (hy : Holds m y Y) (ax : Apart o x) (ay : Apart o y) :
    (Y ≤ X → ∃ m', sub m o x y = .ok m' ∧ Holds m' o (X - Y) ∧ OnlyObj m m' o) ∧
    (X < Y → m (y + 9) ≤ m (x + 9) → sub m o x y = .exit) ∧ (m (x + 9) < m (y + 9) → sub m o x y = .ub) := by
  obtain ⟨wx, rfl⟩ := holds_iff.mp hx
  obtain ⟨wy, rfl⟩ := holds_iff.mp hy
  have h := sub_mem wx ax ay
  have s := C02_sub wx wy
  rw [length_obj, length_obj] at s
  exact ⟨fun hc => impl_ok h (s.1 hc), fun h1 h2 => impl_exit h (s.2.1 h1 h2), fun h1 => impl_ub h (s.2.2 h1)⟩

/-- **C12** `mul1(out, x, y)`: product with one word. -/
theorem C12_mulUnit (hx : Holds m x X) (hy : y < 2 ^ 64) (ax : Apart o x) :
    (m (x + 9) ≤ 8 → ∃ m', mulUnit m o x y = .ok m' ∧ Holds m' o (X * y) ∧ OnlyObj m m' o) ∧
    (m (x + 9) = 9 → mulUnit m o x y = .exit) := by
  obtain ⟨wx, rfl⟩ := holds_iff.mp hx
  have h := mulUnit_mem (y := y) ax wx
  have s := C03_mulUnit wx hy
  rw [length_obj] at s
  exact ⟨fun hc => impl_ok h (s.1 hc), fun hc => impl_exit h (s.2 hc)⟩

/-- **C12** `mul(out, x, y)`; locals of the routine lie from sp on. -/
theorem C12_mul {sp : ℕ} (hx : Holds m x X) (hy : Holds m y Y) (ax : Apart o x) (ay : Apart o y)
    (so : o + 10 ≤ sp) (sx : x + 10 ≤ sp) (sy : y + 10 ≤ sp) :
    (m (x + 9) + m (y + 9) ≤ 9 → ∃ m', mul sp m o x y = .ok m' ∧ Holds m' o (X * Y) ∧
      ∀ i, i < sp → (i < o ∨ o + 10 ≤ i) → m' i = m i) ∧
    (9 < m (x + 9) + m (y + 9) → mul sp m o x y = .exit) := by
  obtain ⟨wx, rfl⟩ := holds_iff.mp hx
  obtain ⟨wy, rfl⟩ := holds_iff.mp hy
  have h := mul_mem wx wy ax ay so sx sy
  have s := C03_mul wx wy
  rw [length_obj, length_obj] at s
  refine ⟨fun hc => ?_, fun hc => ?_⟩
  · obtain ⟨z, e, wz, vz⟩ := s.1 hc
    rcases h with ⟨z', m', h1, h2, h3, h4⟩ | ⟨h1, -⟩ | ⟨h1, -⟩ <;> rw [e] at h1 <;> try cases h1
    exact ⟨m', h2, holds_iff.mpr (by rw [h3]; exact ⟨wz, vz⟩), h4⟩
  · have e := s.2 hc
    rcases h with ⟨z', m', h1, h2, h3, h4⟩ | ⟨h1, h2⟩ | ⟨h1, h2⟩ <;> rw [e] at h1 <;> first | exact h2 | cases h1

/-- **C12** `div(q, r, x, y)` with or without a quotient object; the return value is the Boolean.  q and r are different
objects (`assert(q != &r)`), each may be x or y. -/
theorem C12_div {sp : ℕ} {q : Option ℕ} {r : ℕ} (hx : Holds m x X) (hy : Holds m y Y)
    (qr : ∀ a, q = some a → a + 10 ≤ r ∨ r + 10 ≤ a) (qx : ∀ a, q = some a → Apart a x) (qy : ∀ a, q = some a → Apart a y)
    (rx : Apart r x) (ry : Apart r y) (xy : Apart x y)
    (sq : ∀ a, q = some a → a + 10 ≤ sp) (sr : r + 10 ≤ sp) (sx : x + 10 ≤ sp) (sy : y + 10 ≤ sp) :
    (Y = 0 → div sp m q r x y = .ok (m, false)) ∧
    (Y ≠ 0 → (Y < 2 ^ 512 ∨ X ≤ Y) → ∃ m', div sp m q r x y = .ok (m', true) ∧
      (∀ a, q = some a → Holds m' a (X / Y)) ∧ Holds m' r (X % Y) ∧
      ∀ i, i < sp → (i < r ∨ r + 10 ≤ i) → (∀ a, q = some a → i < a ∨ a + 10 ≤ i) → m' i = m i) ∧
    (2 ^ 512 ≤ Y → Y < X → div sp m q r x y = .exit) := by
  obtain ⟨wx, rfl⟩ := holds_iff.mp hx
  obtain ⟨wy, rfl⟩ := holds_iff.mp hy
  have h := div_mem wx wy qr qx qy rx ry xy sq sr sx sy
  obtain ⟨s1, s2, s3⟩ := C04_div wx wy
  refine ⟨fun hc => ?_, fun h0 hc => ?_, fun h1 h2 => ?_⟩
  · have e := s1 hc
    rcases h with ⟨h1, h2⟩ | ⟨_, _, _, h1, -⟩ | ⟨h1, -⟩ <;> rw [e] at h1 <;> first | exact h2 | cases h1
  · obtain ⟨Q, R, e, wQ, wR, hsum, hlt⟩ := s2 h0 hc
    have hpos : 0 < val (obj m y) := Nat.pos_of_ne_zero h0
    have eQ : val Q = val (obj m x) / val (obj m y) := by
      rw [hsum, Nat.mul_comm, Nat.mul_add_div hpos, Nat.div_eq_of_lt hlt, Nat.add_zero]
    have eR : val R = val (obj m x) % val (obj m y) := by
      rw [hsum, Nat.mul_comm, Nat.mul_add_mod, Nat.mod_eq_of_lt hlt]
    rcases h with ⟨h1, -⟩ | ⟨Q', R', m', h1, h2, h3, h4, h5⟩ | ⟨h1, -⟩ <;> rw [e] at h1 <;> try cases h1
    refine ⟨m', h2, fun a ha => holds_iff.mpr ?_, holds_iff.mpr ?_, h5⟩
    · rw [h3 a ha]; exact ⟨wQ, eQ⟩
    · rw [h4]; exact ⟨wR, eR⟩
  · have e := s3 h1 h2
    rcases h with ⟨h1, -⟩ | ⟨_, _, _, h1, -⟩ | ⟨h1, h2⟩ <;> rw [e] at h1 <;> first | exact h2 | cases h1

/-- **C12** `shl(out, x, n)`. -/
theorem C12_shl (n : ℕ) (hx : Holds m x X) (ax : Apart o x) :
    (X * 2 ^ n < 2 ^ 576 → (X ≠ 0 ∨ n < 576) → ∃ m', shl m o x n = .ok m' ∧ Holds m' o (X * 2 ^ n) ∧ OnlyObj m m' o) ∧
    (2 ^ 576 ≤ X * 2 ^ n → shl m o x n = .exit) ∧ (X = 0 → 576 ≤ n → shl m o x n = .exit) := by
  obtain ⟨wx, rfl⟩ := holds_iff.mp hx
  obtain ⟨⟨h1, h2⟩, -⟩ := hx
  have h := shl_mem n h1 h2 ax
  have s := C05_shl n wx
  exact ⟨fun a b => impl_ok h (s.1 a b), fun a => impl_exit h (s.2.1 a), fun a b => impl_exit h (s.2.2 a b)⟩

/-- **C12** `shr(out, x, n)`. -/
theorem C12_shr (n : ℕ) (hx : Holds m x X) (ax : Apart o x) :
    ∃ m', shr m o x n = .ok m' ∧ Holds m' o (X / 2 ^ n) ∧ OnlyObj m m' o := by
  obtain ⟨wx, rfl⟩ := holds_iff.mp hx
  obtain ⟨⟨h1, h2⟩, -⟩ := hx
  exact impl_ok (shr_mem n h1 h2 ax) (C05_shr n wx)

end

/-! three objects: at 0 the number 2^128 - 1, at 10 the number 2^65 + 7, at 20 an old value -/

def objs : ℕ → ℕ := fun i =>
  match i with
  | 0 => 2 ^ 64 - 1 | 1 => 2 ^ 64 - 1 | 9 => 2
  | 10 => 7 | 11 => 2 | 19 => 2
  | 20 => 5 | 29 => 1
  | _ => 0

theorem objs0 : Holds objs 0 (2 ^ 128 - 1) := holds_iff.mpr (by decide +kernel)
theorem objs10 : Holds objs 10 (2 ^ 65 + 7) := holds_iff.mpr (by decide +kernel)

/-- the object at a after a run -/
def after (run : Res (ℕ → ℕ)) (a : ℕ) : Option (List ℕ) :=
  match run with
  | .ok m => some (obj m a)
  | _ => none

/-- the objects at a and b after a division -/
def afterDiv (run : Res ((ℕ → ℕ) × Bool)) (a b : ℕ) : Option (List ℕ × List ℕ × Bool) :=
  match run with
  | .ok (m, f) => some (obj m a, obj m b, f)
  | _ => none

-- out = x = y
example : Apart 0 0 ∧ after (add objs 0 0 0) 0 = some [2 ^ 64 - 2, 2 ^ 64 - 1, 1] := by unfold Apart; decide +kernel
example : after (mul 100 objs 0 0 0) 0 = some [1, 0, 2 ^ 64 - 2, 2 ^ 64 - 1] := by decide +kernel
example : after (sub objs 0 0 0) 0 = some [0] := by decide +kernel
-- out = x, out = y
example : after (mul 100 objs 10 0 10) 10 = after (mul 100 objs 20 0 10) 20 := by decide +kernel
example : after (mul 100 objs 0 0 10) 0 = after (mul 100 objs 20 0 10) 20 := by decide +kernel
example : after (shl objs 0 0 67) 0 = some [0, 2 ^ 64 - 8, 2 ^ 64 - 1, 7] := by decide +kernel
example : after (shr objs 10 10 1) 10 = some [3, 1] := by decide +kernel
-- q = x and r = y; q = y and r = x; no quotient and r = y
example : afterDiv (div 100 objs (some 0) 10 0 10) 0 10 = some ([2 ^ 63 - 2], [2 ^ 63 + 13], true) := by decide +kernel
example : afterDiv (div 100 objs (some 10) 0 0 10) 10 0 = some ([2 ^ 63 - 2], [2 ^ 63 + 13], true) := by decide +kernel
example : afterDiv (div 100 objs none 10 0 10) 10 0 = some ([2 ^ 63 + 13], [2 ^ 64 - 1, 2 ^ 64 - 1], true) := by decide +kernel
example : (2 ^ 128 - 1) = (2 ^ 63 - 2) * (2 ^ 65 + 7) + (2 ^ 63 + 13) := by norm_num

end Verif
