import Verif.Vuint.Ops

/-! Helper lemmas: value semantics of the shifts. -/

namespace Verif
namespace Vuint

theorem B64_split {n : ℕ} (h : n ≤ 64) : B64 = 2 ^ n * 2 ^ (64 - n) := by
  rw [← pow_add, Nat.add_sub_cancel' h]; norm_num

theorem shl_or {n : ℕ} (h : n ≤ 64) (t s : ℕ) (hs : s < 2 ^ n) :
    ((t * 2 ^ n) % B64) ||| s = 2 ^ n * (t % 2 ^ (64 - n)) + s := by
  rw [B64_split h, Nat.mul_comm t, Nat.mul_mod_mul_left]
  exact (Nat.two_pow_add_eq_or_of_lt hs _).symm

theorem shlBitLoop_spec (n : ℕ) (hn : n ≤ 64) (x : List ℕ) (prev : ℕ) (hx : Words x)
    (hp : prev < B64) :
    (shlBitLoop n x prev).1.length = x.length ∧ Words (shlBitLoop n x prev).1 ∧
    (shlBitLoop n x prev).2 < 2 ^ n ∧
    val (shlBitLoop n x prev).1 + B64 ^ x.length * (shlBitLoop n x prev).2
      = val x * 2 ^ n + prev / 2 ^ (64 - n) := by
  have hs : ∀ q, q < B64 → q / 2 ^ (64 - n) < 2 ^ n := by
    intro q hq
    rw [Nat.div_lt_iff_lt_mul (by positivity), ← B64_split hn]
    exact hq
  induction x generalizing prev with
  | nil => simp [shlBitLoop, hs prev hp]
  | cons t ts ih =>
    rw [words_cons] at hx
    obtain ⟨a1, a2, a3, a4⟩ := ih t hx.2 hx.1
    unfold shlBitLoop
    simp only [shl_or hn t _ (hs prev hp)]
    refine ⟨by simp [a1], ?_, a3, ?_⟩
    · rw [words_cons]
      refine ⟨?_, a2⟩
      have h1 : t % 2 ^ (64 - n) + 1 ≤ 2 ^ (64 - n) := Nat.mod_lt _ (by positivity)
      have h2 := Nat.mul_le_mul_left (2 ^ n) h1
      have h3 := hs prev hp
      rw [← B64_split hn, Nat.mul_add, Nat.mul_one] at h2
      omega
    · have h1 := Nat.div_add_mod t (2 ^ (64 - n))
      have h2 := B64_split hn
      rw [val_cons, val_cons, List.length_cons, pow_succ]
      have e1 : B64 * (val (shlBitLoop n ts t).1 + B64 ^ ts.length * (shlBitLoop n ts t).2)
        = B64 * (val ts * 2 ^ n + t / 2 ^ (64 - n)) := by rw [a4]
      have e2 : t * 2 ^ n = 2 ^ n * (t % 2 ^ (64 - n)) + B64 * (t / 2 ^ (64 - n)) := by
        conv_lhs => rw [← h1]
        rw [h2]; ring
      rw [Nat.add_mul, e2]
      generalize (2 : ℕ) ^ n = a at *
      generalize t % 2 ^ (64 - n) = b at *
      generalize t / 2 ^ (64 - n) = c at *
      generalize prev / 2 ^ (64 - n) = d at *
      generalize val (shlBitLoop n ts t).1 = e at *
      generalize B64 ^ ts.length = f at *
      generalize (shlBitLoop n ts t).2 = g at *
      rw [Nat.mul_add, Nat.mul_add] at e1
      have e3 : f * B64 * g = B64 * (f * g) := by ring
      have e4 : B64 * val ts * a = B64 * (val ts * a) := by ring
      rw [e3, e4]
      omega

theorem shlBit_spec {x : List ℕ} {n : ℕ} (hx : WF x) (h0 : 0 < n) (h1 : n < 64) :
    (val x * 2 ^ n < B64 ^ 9 → ∃ z, shlBit x n = .ok z ∧ WF z ∧ val z = val x * 2 ^ n) ∧
    (B64 ^ 9 ≤ val x * 2 ^ n → shlBit x n = .exit) := by
  obtain ⟨a1, a2, a3, a4⟩ := shlBitLoop_spec n h1.le x 0 hx.isWords B64_pos
  rw [Nat.zero_div, Nat.add_zero] at a4
  have hlt := val_lt a2
  have hp := hx.pos
  have hlen := hx.len
  have h2n : 0 < 2 ^ n := by positivity
  have h2n' : 2 ^ n < B64 := by
    calc 2 ^ n < 2 ^ 64 := Nat.pow_lt_pow_right (by norm_num) h1
      _ = B64 := by norm_num
  unfold shlBit
  rw [if_neg (by simp [h0, h1]), alloc_ok hlen]
  simp only [Res.bind_ok]
  split
  · rename_i hc
    rcases Nat.lt_or_ge x.length 9 with hl | hl
    · rw [alloc_ok (by omega)]
      simp only [Res.bind_ok, Res.pure_eq]
      have hv : val ((shlBitLoop n x 0).1 ++ [(shlBitLoop n x 0).2]) = val x * 2 ^ n := by
        rw [val_append, a1]; simpa using a4
      have hwf : WF ((shlBitLoop n x 0).1 ++ [(shlBitLoop n x 0).2]) := by
        refine ⟨by simp, by simp [a1]; omega, ?_, Or.inr (by simpa using hc)⟩
        exact words_append.2 ⟨a2, by simp; omega⟩
      refine ⟨fun _ => ⟨_, rfl, hwf, hv⟩, fun hge => ?_⟩
      exfalso
      have hb := hwf.val_lt
      rw [hv] at hb
      have : B64 ^ ((shlBitLoop n x 0).1 ++ [(shlBitLoop n x 0).2]).length ≤ B64 ^ 9 :=
        Nat.pow_le_pow_right B64_pos (by simp [a1]; omega)
      exact absurd (lt_of_lt_of_le hb this) (Nat.not_lt.2 hge)
    · rw [alloc_exit (by omega)]
      simp only [Res.bind_exit, implies_true, and_true]
      intro hlt
      exfalso
      have h9 : x.length = 9 := by omega
      rw [h9] at a4
      have : B64 ^ 9 * 1 ≤ B64 ^ 9 * (shlBitLoop n x 0).2 := Nat.mul_le_mul_left _ (by omega)
      omega
  · rename_i hc
    have hc : (shlBitLoop n x 0).2 = 0 := by omega
    rw [hc, Nat.mul_zero, Nat.add_zero] at a4
    have hwf : WF (shlBitLoop n x 0).1 := by
      refine ⟨by omega, by omega, a2, ?_⟩
      rcases Nat.eq_or_lt_of_le hp with h1 | h1
      · left; omega
      · right
        intro hz
        have hge := hx.val_ge (by omega)
        obtain ⟨a, b, hab⟩ : ∃ a b, (shlBitLoop n x 0).1 = a ++ [b] := by
          have hne : (shlBitLoop n x 0).1 ≠ [] := List.ne_nil_of_length_pos (by omega)
          exact ⟨_, _, (List.dropLast_append_getLast hne).symm⟩
        rw [hab] at hz a2 a1 a4
        simp at hz
        subst hz
        have hlt := val_lt (words_append.1 a2).1
        simp at a1
        rw [val_append] at a4
        simp at a4
        have : a.length = x.length - 1 := by omega
        rw [this] at hlt
        have h5 : val x * 1 ≤ val x * 2 ^ n := Nat.mul_le_mul_left _ h2n
        omega
    refine ⟨fun _ => ⟨_, rfl, hwf, a4⟩, fun hge => ?_⟩
    exfalso
    have : B64 ^ (shlBitLoop n x 0).1.length ≤ B64 ^ 9 :=
      Nat.pow_le_pow_right B64_pos (by omega)
    exact absurd (lt_of_lt_of_le (a4 ▸ hlt) this) (Nat.not_lt.2 hge)

theorem shlUnit_spec {x : List ℕ} {n : ℕ} (hx : WF x) :
    (x.length + n ≤ 9 → ∃ z, shlUnit x n = .ok z ∧ WF z ∧ val z = val x * B64 ^ n) ∧
    (9 < x.length + n → shlUnit x n = .exit) := by
  constructor
  · intro h
    unfold shlUnit
    rw [alloc_ok h]
    have hp := hx.pos
    refine ⟨_, rfl, wf_trim (by simp; omega) ?_ (by simp; omega), ?_⟩
    · exact words_append.2 ⟨words_replicate_zero _, hx.isWords⟩
    · rw [val_trim, val_append]; simp [Nat.mul_comm]
  · intro h
    unfold shlUnit
    rw [alloc_exit h]; rfl

theorem pow_B64 (q : ℕ) : B64 ^ q = 2 ^ (64 * q) := by
  rw [pow_mul]; norm_num

theorem two_pow_split (n : ℕ) : 2 ^ n = B64 ^ (n / 64) * 2 ^ (n % 64) := by
  rw [pow_B64, ← pow_add, Nat.div_add_mod]

theorem shl_spec {x : List ℕ} (n : ℕ) (hx : WF x) :
    (val x * 2 ^ n < B64 ^ 9 → (val x ≠ 0 ∨ n < 576) →
      ∃ z, shl x n = .ok z ∧ WF z ∧ val z = val x * 2 ^ n) ∧
    (B64 ^ 9 ≤ val x * 2 ^ n → shl x n = .exit) ∧
    (val x = 0 → 576 ≤ n → shl x n = .exit) := by
  have hp := hx.pos
  have hlen := hx.len
  rcases Nat.eq_zero_or_pos n with h0 | h0
  · subst h0
    have hlt : val x < B64 ^ 9 := lt_of_lt_of_le hx.val_lt (Nat.pow_le_pow_right B64_pos hlen)
    refine ⟨fun _ _ => ⟨x, rfl, hx, by simp⟩, fun h => ?_, fun _ h => by omega⟩
    rw [pow_zero, Nat.mul_one] at h
    exact absurd hlt (Nat.not_lt.2 h)
  have hsplit := two_pow_split n
  have hmod : n % 64 < 64 := Nat.mod_lt _ (by norm_num)
  -- result of the optional bit shift on a well-formed p
  have bit : ∀ p, WF p → val p * 2 ^ (n % 64) = val x * 2 ^ n →
      (val x * 2 ^ n < B64 ^ 9 → ∃ z, (if n % 64 ≠ 0 then shlBit p (n % 64) else pure p) = .ok z ∧
        WF z ∧ val z = val x * 2 ^ n) ∧
      (B64 ^ 9 ≤ val x * 2 ^ n → (if n % 64 ≠ 0 then shlBit p (n % 64) else pure p) = .exit) := by
    intro p hwp hvp
    rcases Nat.eq_zero_or_pos (n % 64) with hr | hr
    · rw [if_neg (by omega)]
      rw [hr, pow_zero, Nat.mul_one] at hvp
      refine ⟨fun _ => ⟨p, rfl, hwp, hvp⟩, fun h => ?_⟩
      have hlt : val p < B64 ^ 9 :=
        lt_of_lt_of_le hwp.val_lt (Nat.pow_le_pow_right B64_pos hwp.len)
      exact absurd (hvp ▸ hlt) (Nat.not_lt.2 h)
    · rw [if_pos (by omega)]
      have := shlBit_spec hwp hr hmod
      rwa [hvp] at this
  unfold shl
  rw [if_neg (by omega)]
  simp only
  rcases Nat.eq_zero_or_pos (n / 64) with hq | hq
  · rw [if_neg (by omega : ¬ n / 64 ≠ 0)]
    simp only [Res.pure_eq, Res.bind_ok]
    rw [hq, pow_zero, Nat.one_mul] at hsplit
    obtain ⟨b1, b2⟩ := bit x hx (by rw [hsplit])
    exact ⟨fun h _ => b1 h, b2, fun _ h => by omega⟩
  · rw [if_pos (by omega : n / 64 ≠ 0)]
    obtain ⟨u1, u2⟩ := shlUnit_spec (n := n / 64) hx
    rcases Nat.lt_or_ge 9 (x.length + n / 64) with hc | hc
    · rw [u2 hc]
      simp only [Res.bind_exit, implies_true, and_true]
      intro hlt hor
      exfalso
      have hpos2 : 0 < 2 ^ (n % 64) := by positivity
      have hge : B64 ^ (x.length - 1) ≤ val x := by
        by_cases h1 : x.length = 1
        · rw [h1]; simp
          rcases hor with h | h
          · omega
          · omega
        · exact hx.val_ge h1
      have h9 : B64 ^ 9 ≤ B64 ^ (x.length - 1) * B64 ^ (n / 64) := by
        rw [← pow_add]; exact Nat.pow_le_pow_right B64_pos (by omega)
      have h10 : B64 ^ (x.length - 1) * B64 ^ (n / 64) ≤ val x * 2 ^ n := by
        rw [hsplit]
        exact Nat.mul_le_mul hge (Nat.le_mul_of_pos_right _ hpos2)
      exact absurd hlt (Nat.not_lt.2 (h9.trans h10))
    · obtain ⟨z, hz, hwz, hvz⟩ := u1 hc
      rw [hz]
      simp only [Res.bind_ok]
      obtain ⟨b1, b2⟩ := bit z hwz (by rw [hvz, hsplit, Nat.mul_assoc])
      refine ⟨fun h _ => b1 h, b2, fun _ h => ?_⟩
      omega

theorem shrBitLoop_spec (n : ℕ) (hn : n ≤ 64) (L : List ℕ) (prev : ℕ) (hL : Words L) :
    (shrBitLoop n L prev).length = L.length ∧ Words (shrBitLoop n L prev) ∧
    val (shrBitLoop n L prev).reverse
      = (val L.reverse + B64 ^ L.length * (prev % 2 ^ n)) / 2 ^ n := by
  induction L generalizing prev with
  | nil => simp [shrBitLoop, Nat.div_eq_of_lt (Nat.mod_lt prev (show 0 < 2 ^ n by positivity))]
  | cons t ts ih =>
    rw [words_cons] at hL
    obtain ⟨a1, a2, a3⟩ := ih t hL.2
    have hpos : 0 < 2 ^ n := by positivity
    have hpos' : 0 < 2 ^ (64 - n) := by positivity
    have hB := B64_split hn
    have ht : t / 2 ^ n < 2 ^ (64 - n) := by
      rw [Nat.div_lt_iff_lt_mul hpos, Nat.mul_comm, ← hB]; exact hL.1
    have hor : (t / 2 ^ n) ||| ((prev * 2 ^ (64 - n)) % B64)
        = 2 ^ (64 - n) * (prev % 2 ^ n) + t / 2 ^ n := by
      rw [hB, Nat.mul_comm prev, Nat.mul_comm (2 ^ n), Nat.mul_mod_mul_left, Nat.or_comm]
      exact (Nat.two_pow_add_eq_or_of_lt ht _).symm
    have hmod : prev % 2 ^ n < 2 ^ n := Nat.mod_lt _ hpos
    unfold shrBitLoop
    rw [hor]
    refine ⟨by simp [a1], ?_, ?_⟩
    · rw [words_cons]
      refine ⟨?_, a2⟩
      rw [Nat.mul_comm]
      have h3 : (prev % 2 ^ n + 1) * 2 ^ (64 - n) ≤ B64 := by
        rw [hB]; exact Nat.mul_le_mul_right _ hmod
      rw [Nat.add_mul, Nat.one_mul] at h3
      omega
    · simp only [List.reverse_cons, val_append, List.length_reverse, a1, a3, val_cons, val_nil,
        Nat.mul_zero, Nat.add_zero, List.length_cons, pow_succ]
      have h1 := Nat.div_add_mod t (2 ^ n)
      have : (val ts.reverse + B64 ^ ts.length * t + B64 ^ ts.length * B64 * (prev % 2 ^ n))
        = (val ts.reverse + B64 ^ ts.length * (t % 2 ^ n)) +
          2 ^ n * (B64 ^ ts.length * (2 ^ (64 - n) * (prev % 2 ^ n) + t / 2 ^ n)) := by
        generalize B64 ^ ts.length = f at *
        rw [hB]
        conv_lhs => rw [← h1]
        ring
      rw [this, Nat.add_mul_div_left _ _ hpos]

theorem shrBit_spec {x : List ℕ} {n : ℕ} (hx : WF x) (h0 : 0 < n) (h1 : n < 64) :
    ∃ z, shrBit x n = .ok z ∧ WF z ∧ val z = val x / 2 ^ n := by
  have hrev : Words x.reverse := fun w hw => hx.isWords w (by simpa using hw)
  obtain ⟨a1, a2, a3⟩ := shrBitLoop_spec n h1.le x.reverse 0 hrev
  have hp := hx.pos
  unfold shrBit
  rw [if_neg (by simp [h0, h1]), alloc_ok hx.len]
  refine ⟨_, rfl, wf_trim (by simp [a1]; omega) ?_ (by simp [a1]; exact hx.len), ?_⟩
  · intro w hw
    exact a2 w (by simpa using hw)
  · rw [val_trim, a3]; simp

theorem shrUnit_spec {x : List ℕ} {n : ℕ} (hx : WF x) :
    ∃ z, shrUnit x n = .ok z ∧ WF z ∧ val z = val x / B64 ^ n := by
  have hlen := hx.len
  unfold shrUnit
  split
  · rename_i h
    refine ⟨_, rfl, by decide, ?_⟩
    have : val x < B64 ^ n := lt_of_lt_of_le hx.val_lt (Nat.pow_le_pow_right B64_pos h)
    rw [Nat.div_eq_of_lt this]; rfl
  · rename_i h
    rw [alloc_ok hlen]
    refine ⟨_, rfl, ⟨by simp; omega, by simp; omega, hx.isWords.drop _, ?_⟩, ?_⟩
    · rcases hx.top with h1 | h1
      · left; simp; omega
      · right
        rw [List.getLast?_drop]
        rwa [if_neg (by omega)]
    · have h2 := val_take_add_drop x n (by omega)
      have h3 := val_lt (hx.isWords.take n)
      have h4 : (x.take n).length = n := by simp; omega
      rw [h4] at h3
      rw [← h2, Nat.add_mul_div_left _ _ (Nat.pow_pos B64_pos), Nat.div_eq_of_lt h3, Nat.zero_add]

theorem shr_spec {x : List ℕ} (n : ℕ) (hx : WF x) :
    ∃ z, shr x n = .ok z ∧ WF z ∧ val z = val x / 2 ^ n := by
  rcases Nat.eq_zero_or_pos n with h0 | h0
  · subst h0
    exact ⟨x, rfl, hx, by simp⟩
  have hsplit := two_pow_split n
  have hmod : n % 64 < 64 := Nat.mod_lt _ (by norm_num)
  have bit : ∀ p, WF p → ∃ z, (if n % 64 ≠ 0 then shrBit p (n % 64) else pure p) = .ok z ∧
        WF z ∧ val z = val p / 2 ^ (n % 64) := by
    intro p hwp
    rcases Nat.eq_zero_or_pos (n % 64) with hr | hr
    · rw [if_neg (by omega), hr]
      exact ⟨p, rfl, hwp, by simp⟩
    · rw [if_pos (by omega)]
      exact shrBit_spec hwp hr hmod
  unfold shr
  rw [if_neg (by omega)]
  simp only
  rcases Nat.eq_zero_or_pos (n / 64) with hq | hq
  · rw [if_neg (by omega : ¬ n / 64 ≠ 0)]
    simp only [Res.pure_eq, Res.bind_ok]
    rw [hq, pow_zero, Nat.one_mul] at hsplit
    obtain ⟨z, b1, b2, b3⟩ := bit x hx
    exact ⟨z, b1, b2, by rw [b3, ← hsplit]⟩
  · rw [if_pos (by omega : n / 64 ≠ 0)]
    obtain ⟨p, u1, u2, u3⟩ := shrUnit_spec (n := n / 64) hx
    rw [u1]
    simp only [Res.bind_ok]
    obtain ⟨z, b1, b2, b3⟩ := bit p u2
    exact ⟨z, b1, b2, by rw [b3, u3, Nat.div_div_eq_div_mul, ← hsplit]⟩

end Vuint
end Verif
