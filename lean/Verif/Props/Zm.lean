import Verif.Zm.Lemmas
import Verif.Props.Sint

/-! Residues `ZmZ` (C16, C17).  `M` holds the modulus, `s` the memory of objects; arguments may be the same object in any
combination. -/

namespace Verif

open Zm

/-! ### C16 -/

/-- C16: `add` stores the reduced sum, or exits exactly when the plain sum does not fit in 9 words. -/
theorem C16_add {M : List ℕ} (hM : WF M) (s : Zm.Mem) (out x y : ℕ) (hx : WF (s x)) (hy : WF (s y)) (lx : val (s x) < val M)
    (ly : val (s y) < val M) :
    (val (s x) + val (s y) < 2 ^ 576 → ∃ z, Zm.add M s out x y = .ok (Function.update s out z) ∧ WF z ∧ val z < val M ∧
      (val z : ZMod (val M)) = val (s x) + val (s y)) ∧
    (2 ^ 576 ≤ val (s x) + val (s y) → Zm.add M s out x y = .exit) := by
  rw [pow9]; exact Zm.add_spec hM hx hy lx ly

/-- C16: `sub` stores the reduced difference, or exits when it has to add the modulus and that does not fit. -/
theorem C16_sub {M : List ℕ} (hM : WF M) (s : Zm.Mem) (out x y : ℕ) (hx : WF (s x)) (hy : WF (s y)) (lx : val (s x) < val M)
    (ly : val (s y) < val M) :
    ((val (s y) ≤ val (s x) ∨ val (s x) + val M < 2 ^ 576) → ∃ z, Zm.sub M s out x y = .ok (Function.update s out z) ∧ WF z ∧
      val z < val M ∧ (val z : ZMod (val M)) = val (s x) - val (s y)) ∧
    (val (s x) < val (s y) → 2 ^ 576 ≤ val (s x) + val M → Zm.sub M s out x y = .exit) := by
  rw [pow9]; exact Zm.sub_spec hM hx hy lx ly

/-- C16: `neg` stores the reduced opposite. -/
theorem C16_neg {M : List ℕ} (hM : WF M) (s : Zm.Mem) (out x : ℕ) (hx : WF (s x)) (lx : val (s x) < val M) :
    ∃ z, Zm.neg M s out x = .ok (Function.update s out z) ∧ WF z ∧ val z < val M ∧ (val z : ZMod (val M)) = -val (s x) :=
  Zm.neg_spec hM hx lx

/-- C16: `mul` stores the reduced product of any two operands, reduced or not, or exits exactly when the numbers of words
add up to more than 9. -/
theorem C16_mul {M : List ℕ} (hM : WF M) (h0 : val M ≠ 0) (h8 : val M < 2 ^ 512) (s : Zm.Mem) (out x y : ℕ) (hx : WF (s x))
    (hy : WF (s y)) :
    ((s x).length + (s y).length ≤ 9 → ∃ z, Zm.mul M s out x y = .ok (Function.update s out z) ∧ WF z ∧
      val z < val M ∧ (val z : ZMod (val M)) = val (s x) * val (s y)) ∧
    (9 < (s x).length + (s y).length → Zm.mul M s out x y = .exit) := by
  rw [pow8] at h8; exact Zm.mul_spec hM h0 h8 hx hy

/-- C16: for a modulus of at most 4 words the four operations on reduced operands never exit. -/
theorem C16_total {M : List ℕ} (hM : WF M) (h4 : val M ≤ 2 ^ 256) (s : Zm.Mem) (out x y : ℕ) (hx : WF (s x)) (hy : WF (s y))
    (lx : val (s x) < val M) (ly : val (s y) < val M) :
    (∃ z, Zm.add M s out x y = .ok (Function.update s out z)) ∧ (∃ z, Zm.sub M s out x y = .ok (Function.update s out z)) ∧
    (∃ z, Zm.neg M s out x = .ok (Function.update s out z)) ∧ ∃ z, Zm.mul M s out x y = .ok (Function.update s out z) := by
  have e : (2 : ℕ) ^ 256 = B64 ^ 4 := by decide +kernel
  have h9 : B64 ^ 4 + B64 ^ 4 < 2 ^ 576 := by decide +kernel
  have h5 : B64 ^ 4 < 2 ^ 512 := by decide +kernel
  rw [e] at h4
  have l1 := length_le4 hx (by omega)
  have l2 := length_le4 hy (by omega)
  obtain ⟨a, ea, _⟩ := (C16_add hM s out x y hx hy lx ly).1 (by omega)
  obtain ⟨b, eb, _⟩ := (C16_sub hM s out x y hx hy lx ly).1 (.inr (by omega))
  obtain ⟨c, ec, _⟩ := C16_neg hM s out x hx lx
  obtain ⟨d, ed, _⟩ := (C16_mul hM (by omega) (by omega) s out x y hx hy).1 (by omega)
  exact ⟨⟨a, ea⟩, ⟨b, eb⟩, ⟨c, ec⟩, ⟨d, ed⟩⟩

theorem digitsVal_eq (b : ℕ) (ws : List ℕ) : digitsVal b ws = Nat.ofDigits b ws := by
  induction ws with
  | nil => rfl
  | cons a l ih => rw [digitsVal, Nat.ofDigits_cons, ih]

/-- C16: construction from a number, from words and from decimal or hexadecimal numerals stores the reduced number. -/
theorem C16_set {M : List ℕ} (hM : WF M) (h0 : val M ≠ 0) (h8 : val M < 2 ^ 512) :
    (∀ x, WF x → ∃ z, Zm.setV M x = .ok z ∧ WF z ∧ val z = val x % val M) ∧
    (∀ (t : List Char) (n : ℕ), t ≠ [] → Denotes 10 t n → (t = ['0'] ∨ t.head? ≠ some '0') → t.length < 2 ^ 31 →
      n / 10 ^ 9 < 2 ^ 512 → ∃ z, Zm.setStr M t = .ok z ∧ WF z ∧ val z = n % val M) ∧
    (∀ (t : List Char) (n : ℕ), t ≠ [] → Denotes 16 t n → t.length ≤ 144 →
      ∃ z, Zm.setStr M ('0' :: 'x' :: t) = .ok z ∧ WF z ∧ val z = n % val M) ∧
    (∀ ws : List ℕ, (∀ w ∈ ws, w < 2 ^ 64) → ws.length ≤ 9 →
      ∃ z, Zm.setUnits M ws = .ok z ∧ WF z ∧ val z = val ws % val M) ∧
    ∀ ws : List ℕ, (∀ w ∈ ws, w < 2 ^ 32) → ws.length ≤ 18 →
      ∃ z, Zm.setUnits32 M ws = .ok z ∧ WF z ∧ val z = Nat.ofDigits (2 ^ 32) ws % val M := by
  rw [pow8] at h8
  have key : ∀ x, WF x → ∃ z, modulo M x = .ok z ∧ WF z ∧ val z = val x % val M := fun x hx => (modulo_spec hM hx).1 h0 (.inl h8)
  have str : ∀ t x, Text.set t = .ok x → WF x → ∃ z, Zm.setStr M t = .ok z ∧ WF z ∧ val z = val x % val M := by
    intro t x e hx
    obtain ⟨z, ez, r⟩ := key x hx
    exact ⟨z, by unfold Zm.setStr; rw [e, Res.bind_ok, ez], r⟩
  refine ⟨key, fun t n h1 h2 h3 h4 h5 => ?_, fun t n h1 h2 h3 => ?_, fun ws hw hl => ?_, fun ws hw hl => ?_⟩
  · obtain ⟨x, e, wx, vx⟩ := (C10_dec h1 h2 h3 h4).1 h5
    rw [← vx]; exact str t x e wx
  · obtain ⟨x, e, wx, vx⟩ := (C10_hex h1 h2 (by omega)).1 h3
    rw [← vx]; exact str _ x e wx
  · obtain ⟨x, e, wx, vx⟩ := (setUnits_spec ws hw).1 hl
    rw [digitsVal_64] at vx
    obtain ⟨z, ez, r⟩ := key x wx
    exact ⟨z, by unfold Zm.setUnits; rw [e, Res.bind_ok, ez], by rw [← vx]; exact r⟩
  · obtain ⟨x, e, wx, vx⟩ := (setUnits32_spec ws hw).1 hl
    rw [digitsVal_eq] at vx
    obtain ⟨z, ez, r⟩ := key x wx
    exact ⟨z, by unfold Zm.setUnits32; rw [e, Res.bind_ok, ez], by rw [← vx]; exact r⟩

/-- C16: construction from `int`.  A negative value gives m + x, or exits when m < -x or for the smallest `int`.  A
non-negative value is stored as it is, reduced only if it is below m. -/
theorem C16_set_int {M : List ℕ} (hM : WF M) (x : ℤ) (h1 : -2 ^ 31 ≤ x) (h2 : x < 2 ^ 31) :
    (0 ≤ x → ∃ z, Zm.setInt M x = .ok z ∧ WF z ∧ (val z : ℤ) = x) ∧
    (x < 0 → -2 ^ 31 < x → -x ≤ val M → ∃ z, Zm.setInt M x = .ok z ∧ WF z ∧ val z < val M ∧ (val z : ZMod (val M)) = x) ∧
    ((x = -2 ^ 31 ∨ (x < 0 ∧ (val M : ℤ) < -x)) → Zm.setInt M x = .exit) := by
  refine ⟨fun h => ?_, fun h h3 h4 => ?_, fun h => ?_⟩
  · unfold Zm.setInt
    by_cases hx : x = 0
    · rw [if_pos hx]; exact ⟨_, rfl, Vuint.wf_ofUnit (by norm_num), by rw [Vuint.val_ofUnit, hx]; rfl⟩
    · rw [if_neg hx, if_pos (by omega)]
      exact ⟨_, rfl, Vuint.wf_ofUnit (by norm_num; omega), by rw [Vuint.val_ofUnit]; omega⟩
  · have w : WF (Vuint.ofUnit (-x).toNat) := Vuint.wf_ofUnit (by norm_num; omega)
    have v : val (Vuint.ofUnit (-x).toNat) = (-x).toNat := Vuint.val_ofUnit _
    obtain ⟨z, ez, wz, vz⟩ := (Vuint.sub_spec hM w).1 (by omega)
    refine ⟨z, ?_, wz, by omega, ?_⟩
    · unfold Zm.setInt
      rw [if_neg (by omega), if_neg (by omega), if_neg, ez]
      rintro (h5 | h5)
      · omega
      · rw [compare_lt hM w] at h5; omega
    · have : (val z : ℤ) = val M + x := by omega
      have := congrArg (Int.cast : ℤ → ZMod (val M)) this
      push_cast at this
      rw [this, ZMod.natCast_self, zero_add]
  · unfold Zm.setInt
    have w : x ≠ -2 ^ 31 → x < 0 → WF (Vuint.ofUnit (-x).toNat) := fun _ _ => Vuint.wf_ofUnit (by norm_num; omega)
    rw [if_neg (by omega), if_neg (by omega), if_pos]
    by_cases h5 : x = -2147483647 - 1
    · exact .inl h5
    · right
      have h6 : x < 0 ∧ (val M : ℤ) < -x := by rcases h with h | h <;> omega
      rw [compare_lt hM (w (by omega) h6.1), Vuint.val_ofUnit]
      omega

/-- C16 is not true of construction from a positive `int`: 20 modulo 7 is stored as 20, and 20 + 20 is then
stored as 33. -/
theorem C16_int_unreduced : Zm.setInt [7] 20 = .ok [20] ∧
    Zm.add [7] (fun _ => [20]) 0 0 1 = .ok (Function.update (fun _ => [20]) 0 [33]) := by
  refine ⟨by decide, ?_⟩
  unfold Zm.add
  rw [show Vuint.add [20] [20] = .ok [40] from by decide]
  simp only [Res.bind_ok, Function.update_self]
  rw [if_neg (by decide), show Vuint.sub [40] [7] = .ok [33] from by decide, Res.bind_ok, Function.update_idem]
  rfl

/-- objects for the examples: 5, 6 and 2^64+1 -/
def exZ : Zm.Mem := fun i => if i = 0 then [5] else if i = 1 then [6] else [1, 1]

-- non-vacuity: modulus 7 and modulus 2^64+13
example : (∃ z, Zm.add [7] exZ 1 0 1 = .ok (Function.update exZ 1 z) ∧ val z < 7 ∧ (val z : ZMod 7) = 4) := by
  obtain ⟨z, e, _, l, v⟩ := (C16_add (M := [7]) (by decide) exZ 1 0 1 (by decide) (by decide) (by decide) (by decide)).1 (by decide +kernel)
  exact ⟨z, e, l, v.trans (show (((5 : ℕ) : ZMod 7) + ((6 : ℕ) : ZMod 7) = 4) by decide)⟩

example : ∃ z, Zm.sub [13, 1] exZ 1 0 1 = .ok (Function.update exZ 1 z) ∧ val z = B64 + 12 := by
  obtain ⟨z, e, _, l, v⟩ := (C16_sub (M := [13, 1]) (by decide) exZ 1 0 1 (by decide) (by decide) (by decide) (by decide)).1
    (.inr (by decide +kernel))
  refine ⟨z, e, ?_⟩
  have h : (val z : ZMod (val [13, 1])) = ((B64 + 12 : ℕ) : ZMod (val [13, 1])) := by rw [v]; decide +kernel
  rw [ZMod.natCast_eq_natCast_iff'] at h
  rwa [Nat.mod_eq_of_lt l, Nat.mod_eq_of_lt (by decide +kernel)] at h

example : ∃ z, Zm.mul [13, 1] exZ 2 2 2 = .ok (Function.update exZ 2 z) ∧ (val z : ZMod (val [13, 1])) = 144 := by
  obtain ⟨z, e, _, l, v⟩ := (C16_mul (M := [13, 1]) (by decide) (by decide) (by decide +kernel) exZ 2 2 2 (by decide) (by decide)).1 (by decide)
  exact ⟨z, e, v.trans (by decide +kernel)⟩

example : ∃ z, Zm.neg [7] exZ 0 0 = .ok (Function.update exZ 0 z) ∧ (val z : ZMod 7) = 2 := by
  obtain ⟨z, e, _, l, v⟩ := C16_neg (M := [7]) (by decide) exZ 0 0 (by decide) (by decide)
  exact ⟨z, e, v.trans (show (-((5 : ℕ) : ZMod 7) = 2) by decide)⟩

example : Zm.setV [7] [1, 1] = .ok [3] ∧ Zm.setInt [7] (-3) = .ok [4] ∧ Zm.setInt [7] (-8) = .exit ∧
    Zm.setStr [7] "0x1f".toList = .ok [3] := by decide +kernel

/-! ### C17 -/

/-- C17: for a modulus 2 <= m <= 2^256 and x coprime to it, `inv` terminates with the reduced inverse. -/
theorem C17_inv {M x : List ℕ} (hM : WF M) (h1 : 1 < val M) (h4 : val M ≤ 2 ^ 256) (hx : WF x) (lx : val x < val M)
    (hc : Nat.Coprime (val x) (val M)) :
    ∃ z, Zm.inv M x = .ok z ∧ WF z ∧ val z < val M ∧ (val z : ZMod (val M)) * val x = 1 :=
  Zm.inv_spec hM h1 (h4.trans_eq (by decide +kernel)) hx lx hc

/-- C17: for a prime modulus every non-zero residue has its inverse computed, and division is multiplication by it. -/
theorem C17_prime {M : List ℕ} (hM : WF M) [Fact (val M).Prime] (h4 : val M ≤ 2 ^ 256) {x y : List ℕ} (hx : WF x)
    (lx : val x < val M) (hy : WF y) (ly : val y < val M) (h0 : val y ≠ 0) :
    (∃ z, Zm.inv M y = .ok z ∧ WF z ∧ val z < val M ∧ (val z : ZMod (val M)) = (val y : ZMod (val M))⁻¹) ∧
    ∃ z, Zm.divide M x y = .ok z ∧ WF z ∧ val z < val M ∧ (val z : ZMod (val M)) = (val x : ZMod (val M)) / val y := by
  have hp : (val M).Prime := Fact.out
  have hc : Nat.Coprime (val y) (val M) := by
    rw [Nat.coprime_comm, hp.coprime_iff_not_dvd]
    exact fun h => h0 (Nat.eq_zero_of_dvd_of_lt h ly)
  obtain ⟨i, e, wi, li, vi⟩ := C17_inv hM hp.one_lt h4 hy ly hc
  have vi' : (val i : ZMod (val M)) = (val y : ZMod (val M))⁻¹ := eq_inv_of_mul_eq_one_left vi
  refine ⟨⟨i, e, wi, li, vi'⟩, ?_⟩
  have e4 : (2 : ℕ) ^ 256 = B64 ^ 4 := by decide +kernel
  rw [e4] at h4
  have l1 := length_le4 hx (by omega)
  have l2 := length_le4 wi (by omega)
  have h8 : B64 ^ 4 < B64 ^ 8 := by decide +kernel
  obtain ⟨z, ez, wz, lz, vz⟩ := (Zm.mul_spec (M := M) (s := fun j => if j = 0 then i else x) (out := 0) (x := 0) (y := 1) hM
    hp.ne_zero (by omega) wi hx).1 (by simp; omega)
  refine ⟨z, ?_, wz, lz, ?_⟩
  · unfold Zm.divide
    rw [e, Res.bind_ok, ez, Res.bind_ok, Function.update_self]; rfl
  · rw [vz, div_eq_mul_inv, mul_comm]
    simp [vi']

/-- C17: the inverse of 0 is 0 in the release build, for every modulus. -/
theorem C17_zero (M : List ℕ) {x : List ℕ} (hx : WF x) (h0 : val x = 0) : ∃ z, Zm.inv M x = .ok z ∧ WF z ∧ val z = 0 :=
  Zm.inv_zero hx h0

/-- C17: without coprimality the result means nothing: the "inverse" of 2 modulo 6 is 4. -/
theorem C17_not_coprime : Zm.inv [6] [2] = .ok [4] ∧ 2 * 4 % 6 ≠ 1 := by decide +kernel

-- non-vacuity: modulus 2^64 (as in `setModulo`) and the prime 2^89-1
example : ∃ z, Zm.inv [0, 1] [12345] = .ok z ∧ (val z : ZMod (val [0, 1])) * (12345 : ℕ) = 1 := by
  obtain ⟨z, e, _, _, v⟩ := C17_inv (M := [0, 1]) (x := [12345]) (by decide) (by decide) (by decide +kernel) (by decide) (by decide)
    (by decide +kernel)
  exact ⟨z, e, v⟩

theorem seven_ne : ((7 : ℕ) : ZMod 11) ≠ 0 := by decide

example : ∃ z, Zm.divide [11] [5] [7] = .ok z ∧ (val z : ZMod 11) * 7 = 5 := by
  have : Fact (val [11]).Prime := ⟨by decide⟩
  have : Fact (Nat.Prime 11) := ⟨by decide⟩
  obtain ⟨z, e, _, _, v⟩ := (C17_prime (M := [11]) (x := [5]) (y := [7]) (by decide) (by decide +kernel) (by decide) (by decide) (by decide)
    (by decide) (by decide)).2
  have v' : (val z : ZMod 11) = ((5 : ℕ) : ZMod 11) / ((7 : ℕ) : ZMod 11) := v
  refine ⟨z, e, ?_⟩
  rw [v']
  exact div_mul_cancel₀ _ seven_ne

end Verif
