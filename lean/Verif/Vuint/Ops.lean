import Verif.Vuint.Lemmas

/-! Helper lemmas: value semantics of the `Vuint` operations. -/

namespace Verif
namespace Vuint

theorem alloc_ok {n : ℕ} (h : n ≤ 9) : alloc n = .ok () := by
  simp [alloc, cap, h]

theorem alloc_exit {n : ℕ} (h : 9 < n) : alloc n = .exit := by
  simp [alloc, cap, h]

theorem addIn_spec {x y : List ℕ} (hx : WF x) (hy : WF y) :
    ∃ r, addIn x y = .ok r ∧ r.1.length = max x.length y.length ∧ Words r.1 ∧ r.2 ≤ 1 ∧
      val r.1 + B64 ^ r.1.length * r.2 = val x + val y := by
  have main : ∀ px py : List ℕ, WF px → WF py → py.length ≤ px.length →
      ∃ r, (do
          alloc px.length
          let lo := addN (px.take py.length) py
          if px.length > py.length then
            let hi := add1 (px.drop py.length) lo.2
            pure (lo.1 ++ hi.1, hi.2)
          else
            pure lo : Res (List ℕ × ℕ)) = .ok r ∧ r.1.length = px.length ∧ Words r.1 ∧ r.2 ≤ 1 ∧
        val r.1 + B64 ^ r.1.length * r.2 = val px + val py := by
    intro px py hpx hpy hle
    have hlen : (px.take py.length).length = py.length := by simp [hle]
    obtain ⟨a1, a2, a3, a4⟩ := addN_spec (px.take py.length) py hlen (hpx.isWords.take _)
      hpy.isWords
    rw [hlen] at a1 a4
    rw [alloc_ok hpx.len]
    simp only [Res.bind_ok]
    split
    · rename_i hlt
      obtain ⟨b1, b2, b3, b4⟩ := add1_spec (px.drop py.length) (addN (px.take py.length) py).2
        (by simp; omega) (hpx.isWords.drop _) (by omega)
      refine ⟨_, rfl, ?_, ?_, b3, ?_⟩
      · simp only [List.length_append, a1, b1, List.length_drop]; omega
      · simp [a2, b2]
      · simp only [List.length_append, val_append, a1, pow_add]
        have h5 := val_take_add_drop px py.length hle
        have h6 : B64 ^ py.length * (val (add1 (px.drop py.length) (addN (px.take py.length) py).2).1
          + B64 ^ (px.drop py.length).length * (add1 (px.drop py.length) (addN (px.take py.length) py).2).2)
          = B64 ^ py.length * (val (px.drop py.length) + (addN (px.take py.length) py).2) := by
          rw [b4]
        rw [b1]
        nlinarith
    · rename_i hlt
      have : px.length = py.length := by omega
      refine ⟨_, rfl, by omega, a2, a3, ?_⟩
      rw [a1, a4]
      rw [List.take_of_length_le (by omega)]
  unfold addIn
  split
  rename_i px py heq
  split at heq
  · rename_i h
    injection heq with e1 e2
    subst e1 e2
    obtain ⟨r, h1, h2, h3, h4, h5⟩ := main y x hy hx (by omega)
    exact ⟨r, h1, by omega, h3, h4, by omega⟩
  · rename_i h
    injection heq with e1 e2
    subst e1 e2
    obtain ⟨r, h1, h2, h3, h4, h5⟩ := main x y hx hy (by omega)
    exact ⟨r, h1, by omega, h3, h4, by omega⟩

theorem wf_append_one {z : List ℕ} (hw : Words z) (hl : z.length + 1 ≤ 9) : WF (z ++ [1]) := by
  refine ⟨by simp, by simpa using hl, ?_, Or.inr (by simp)⟩
  exact words_append.2 ⟨hw, by simp⟩

theorem add_spec {x y : List ℕ} (hx : WF x) (hy : WF y) :
    (val x + val y < B64 ^ 9 → ∃ z, add x y = .ok z ∧ WF z ∧ val z = val x + val y) ∧
    (B64 ^ 9 ≤ val x + val y → add x y = .exit) := by
  obtain ⟨r, h1, h2, h3, h4, h5⟩ := addIn_spec hx hy
  have hlen : r.1.length ≤ 9 := by have := hx.len; have := hy.len; omega
  have hpos : 0 < r.1.length := by have := hx.pos; omega
  have hrlt := val_lt h3
  unfold add
  rw [h1]
  simp only [Res.bind_ok]
  split
  · rename_i hc
    have hc1 : r.2 = 1 := by omega
    rw [hc1] at h5
    rcases Nat.lt_or_ge r.1.length 9 with hl | hl
    · rw [alloc_ok (by omega)]
      simp only [Res.bind_ok, Res.pure_eq]
      have hv : val (r.1 ++ [1]) = val x + val y := by simp [val_append]; omega
      refine ⟨fun _ => ⟨_, rfl, wf_append_one h3 (by omega), hv⟩, fun hge => ?_⟩
      exfalso
      have hb := (wf_append_one h3 (by omega)).val_lt
      rw [hv] at hb
      have : B64 ^ (r.1 ++ [1]).length ≤ B64 ^ 9 := Nat.pow_le_pow_right B64_pos (by simp; omega)
      omega
    · rw [alloc_exit (by omega)]
      simp only [Res.bind_exit, and_true, implies_true]
      intro hlt
      have : r.1.length = 9 := by omega
      rw [this] at h5
      omega
  · rename_i hc
    have hc1 : r.2 = 0 := by omega
    rw [hc1] at h5
    refine ⟨fun _ => ⟨_, rfl, wf_trim hpos h3 hlen, by rw [val_trim]; omega⟩, fun hge => ?_⟩
    exfalso
    have : B64 ^ r.1.length ≤ B64 ^ 9 := Nat.pow_le_pow_right B64_pos hlen
    omega

theorem add32_spec {x : List ℕ} {y : ℕ} (hx : WF x) (hy : y < 2 ^ 32) :
    (val x + y < B64 ^ 9 → ∃ z, add32 x y = .ok z ∧ WF z ∧ val z = val x + y) ∧
    (B64 ^ 9 ≤ val x + y → add32 x y = .exit) := by
  obtain ⟨b1, b2, b3, b4⟩ := add1_spec x y hx.pos hx.isWords (by omega)
  have hlen : (add1 x y).1.length ≤ 9 := by have := hx.len; omega
  have hrlt := val_lt b2
  have hp := hx.pos
  unfold add32
  rw [alloc_ok hx.len]
  simp only [Res.bind_ok]
  split
  · rename_i hc
    have hc1 : (add1 x y).2 = 1 := by omega
    rw [hc1] at b4
    rcases Nat.lt_or_ge x.length 9 with hl | hl
    · rw [alloc_ok (by omega)]
      simp only [Res.bind_ok, Res.pure_eq]
      have hv : val ((add1 x y).1 ++ [1]) = val x + y := by simp [val_append, b1]; omega
      have hwf := wf_append_one b2 (by omega)
      refine ⟨fun _ => ⟨_, rfl, hwf, hv⟩, fun hge => ?_⟩
      exfalso
      have hb := hwf.val_lt
      rw [hv] at hb
      have : B64 ^ ((add1 x y).1 ++ [1]).length ≤ B64 ^ 9 :=
        Nat.pow_le_pow_right B64_pos (by simp; omega)
      omega
    · rw [alloc_exit (by omega)]
      simp only [Res.bind_exit, and_true, implies_true]
      intro hlt
      have : x.length = 9 := by have := hx.len; omega
      rw [this] at b4
      omega
  · rename_i hc
    have hc1 : (add1 x y).2 = 0 := by omega
    rw [hc1] at b4
    have hwf : WF (add1 x y).1 := by
      refine ⟨by omega, hlen, b2, ?_⟩
      rcases Nat.eq_or_lt_of_le hp with h1 | h1
      · left; omega
      · right
        intro h0
        -- top word zero: the value would be below B64^(n-1)
        have hge := hx.val_ge (by omega)
        obtain ⟨a, b, hab⟩ : ∃ a b, (add1 x y).1 = a ++ [b] := by
          have hne : (add1 x y).1 ≠ [] := List.ne_nil_of_length_pos (by omega)
          exact ⟨_, _, (List.dropLast_append_getLast hne).symm⟩
        rw [hab] at h0 b2 b1 b4
        simp at h0
        subst h0
        have hlt := val_lt (words_append.1 b2).1
        simp at b1
        rw [val_append] at b4
        simp at b4
        have : a.length = x.length - 1 := by omega
        rw [this] at hlt
        omega
    refine ⟨fun _ => ⟨_, rfl, hwf, by omega⟩, fun hge => ?_⟩
    exfalso
    have : B64 ^ (add1 x y).1.length ≤ B64 ^ 9 := Nat.pow_le_pow_right B64_pos hlen
    omega

theorem sub_spec {x y : List ℕ} (hx : WF x) (hy : WF y) :
    (val y ≤ val x → ∃ z, sub x y = .ok z ∧ WF z ∧ val z = val x - val y) ∧
    (val x < val y → y.length ≤ x.length → sub x y = .exit) ∧
    (x.length < y.length → sub x y = .ub) := by
  refine ⟨?_, ?_, ?_⟩
  all_goals
    rcases Nat.lt_or_ge x.length y.length with hl | hl
  -- x shorter
  · intro h
    have := hy.length_le hx h
    omega
  rotate_left
  · intro _ h; omega
  rotate_left
  · intro _; simp [sub, subIn, hl]
  · intro h; omega
  all_goals
    have hlen : (x.take y.length).length = y.length := by simp [hl]
    obtain ⟨a1, a2, a3, a4⟩ := subN_spec (x.take y.length) y hlen (hx.isWords.take _) hy.isWords
    rw [hlen] at a1 a4
    have key : ∃ r, subIn x y = .ok r ∧ r.1.length = x.length ∧ Words r.1 ∧ r.2 ≤ 1 ∧
        val r.1 + val y = val x + B64 ^ x.length * r.2 := by
      unfold subIn
      rw [if_neg (by omega), alloc_ok hx.len]
      simp only [Res.bind_ok]
      split
      · rename_i hlt
        obtain ⟨b1, b2, b3, b4⟩ := sub1_spec (x.drop y.length) (subN (x.take y.length) y).2
          (by simp; omega) (hx.isWords.drop _) (by omega)
        refine ⟨_, rfl, ?_, ?_, b3, ?_⟩
        · simp only [List.length_append, a1, b1, List.length_drop]; omega
        · simp [a2, b2]
        · have h5 := val_take_add_drop x y.length hl
          have h7 : B64 ^ x.length = B64 ^ y.length * B64 ^ (x.drop y.length).length := by
            rw [← pow_add]; congr 1; simp; omega
          have h6 : B64 ^ y.length * (val (sub1 (x.drop y.length) (subN (x.take y.length) y).2).1
            + (subN (x.take y.length) y).2)
            = B64 ^ y.length * (val (x.drop y.length) + B64 ^ (x.drop y.length).length *
              (sub1 (x.drop y.length) (subN (x.take y.length) y).2).2) := by rw [b4]
          simp only [val_append, a1, h7]
          nlinarith
      · rename_i hlt
        have : x.length = y.length := by omega
        refine ⟨_, rfl, by omega, a2, a3, ?_⟩
        rw [a4, List.take_of_length_le (by omega), this]
    obtain ⟨r, r1, r2, r3, r4, r5⟩ := key
    have hrlt := val_lt r3
    have hxlt := hx.val_lt
    rw [r2] at hrlt
  · intro h
    have : r.2 = 0 := by
      by_contra hne
      have h1 : r.2 = 1 := by omega
      rw [h1] at r5
      omega
    unfold sub
    rw [r1]
    simp only [Res.bind_ok, this, ne_eq, not_true_eq_false, if_false]
    refine ⟨_, rfl, wf_trim (by have := hx.pos; omega) r3 (by have := hx.len; omega), ?_⟩
    rw [val_trim]
    rw [this] at r5
    omega
  · intro h _
    have : r.2 ≠ 0 := by
      intro h0
      rw [h0] at r5
      omega
    unfold sub
    rw [r1]
    simp [this]

theorem mulUnit_spec {x : List ℕ} {y : ℕ} (hx : WF x) (hy : y < B64) :
    (x.length + 1 ≤ 9 → ∃ z, mulUnit x y = .ok z ∧ WF z ∧ val z = val x * y) ∧
    (9 < x.length + 1 → mulUnit x y = .exit) := by
  obtain ⟨a1, a2, a3⟩ := mul1_spec x y hx.isWords hy
  constructor
  · intro h
    unfold mulUnit
    rw [alloc_ok h]
    refine ⟨_, rfl, wf_trim (by omega) a2 (by omega), by rw [val_trim, a3]⟩
  · intro h
    unfold mulUnit
    rw [alloc_exit h]; rfl

theorem mulLoop_spec (x ys : List ℕ) (i : ℕ) (out : List ℕ) (pre : ℕ) (hx : Words x)
    (hys : Words ys) (ho : Words out) (hlen : out.length = i + x.length + ys.length)
    (hv : val out = val x * pre) (hpre : pre < B64 ^ i)
    :
    (mulLoop x ys i out).length = out.length ∧ Words (mulLoop x ys i out) ∧
    val (mulLoop x ys i out) = val x * (pre + B64 ^ i * val ys) := by
  induction ys generalizing i out pre with
  | nil => simp [mulLoop, ho, hv]
  | cons y ys ih =>
    rw [words_cons] at hys
    obtain ⟨hy, hys⟩ := hys
    obtain ⟨m1, m2, m3⟩ := mul1_spec x y hx hy
    unfold mulLoop
    simp only
    simp only [List.length_cons] at hlen
    have hseg : ((out.drop i).take (x.length + 1)).length = x.length + 1 := by
      simp; omega
    obtain ⟨a1, a2, a3, a4⟩ := addN_spec ((out.drop i).take (x.length + 1)) (mul1 x y)
      (by rw [hseg, m1]) ((ho.drop _).take _) m2
    rw [hseg] at a1 a4
    have hxlt := val_lt hx
    -- the words above the segment are zero and the addition does not carry
    have hout := val_take_add_drop out i (by omega)
    have hout2 := val_take_add_drop (out.drop i) (x.length + 1) (by simp; omega)
    rw [List.drop_drop] at hout2
    set seg := val ((out.drop i).take (x.length + 1)) with hsegdef
    set lo := val (out.take i) with hlodef
    set hi := val (out.drop (i + (x.length + 1))) with hhidef
    have hBi : 0 < B64 ^ i := Nat.pow_pos B64_pos
    -- val out < B64^(i + x.length)
    have hvlt : val out < B64 ^ i * B64 ^ x.length := by
      rw [hv]
      rcases Nat.eq_zero_or_pos pre with h0 | h0
      · rw [h0, Nat.mul_zero]; positivity
      · calc val x * pre < B64 ^ x.length * pre := Nat.mul_lt_mul_of_pos_right hxlt h0
          _ ≤ B64 ^ x.length * B64 ^ i := Nat.mul_le_mul_left _ hpre.le
          _ = _ := by ring
    have hdlt : val (out.drop i) < B64 ^ x.length := by
      by_contra hc
      have : B64 ^ i * B64 ^ x.length ≤ B64 ^ i * val (out.drop i) :=
        Nat.mul_le_mul_left _ (by omega)
      omega
    have hBx : 0 < B64 ^ x.length := Nat.pow_pos B64_pos
    have hhi0 : hi = 0 := by
      by_contra hne
      have h1 : 1 ≤ hi := by omega
      have h2 : B64 ^ (x.length + 1) * 1 ≤ B64 ^ (x.length + 1) * hi := Nat.mul_le_mul_left _ h1
      rw [pow_succ] at h2 hout2
      omega
    have hseglt : seg < B64 ^ x.length := by rw [hhi0] at hout2; omega
    have hfit : seg + val x * y < B64 ^ x.length * B64 := by
      have h1 : B64 ^ x.length * (y + 1) ≤ B64 ^ x.length * B64 := Nat.mul_le_mul_left _ hy
      have h2 : val x * y ≤ B64 ^ x.length * y := Nat.mul_le_mul_right _ hxlt.le
      rw [Nat.mul_add, Nat.mul_one] at h1
      exact lt_of_lt_of_le (Nat.add_lt_add_of_lt_of_le hseglt h2) (by rw [Nat.add_comm]; exact h1)
    have hno : (addN ((out.drop i).take (x.length + 1)) (mul1 x y)).2 = 0 := by
      by_contra hne
      have h1 : (addN ((out.drop i).take (x.length + 1)) (mul1 x y)).2 = 1 := by omega
      rw [h1, m3, pow_succ, Nat.mul_one] at a4
      have h3 : B64 ^ x.length * B64 ≤ seg + val x * y := by
        rw [← a4]; exact Nat.le_add_left _ _
      exact absurd hfit (Nat.not_lt.2 h3)
    rw [hno, m3, Nat.mul_zero, Nat.add_zero] at a4
    set s := (addN ((out.drop i).take (x.length + 1)) (mul1 x y)).1 with hs
    set out' := out.take i ++ s ++ out.drop (i + (x.length + 1)) with hout'
    have hlt_i : (out.take i).length = i := by simp; omega
    have hlen' : out'.length = out.length := by
      simp only [hout', List.length_append, hlt_i, a1, List.length_drop]; omega
    have hw' : Words out' := by
      simp only [hout', words_append]
      exact ⟨⟨ho.take _, a2⟩, ho.drop _⟩
    have hv' : val out' = val x * (pre + B64 ^ i * y) := by
      simp only [hout', val_append, hlt_i, List.length_append, a1, ← hhidef, ← hlodef, hhi0]
      rw [hhi0, Nat.mul_zero, Nat.add_zero] at hout2
      have h3 : val s = seg + val x * y := a4
      have h4 : val (out.drop i) = seg := hout2.symm
      rw [h4, hv] at hout
      rw [h3, Nat.mul_zero, Nat.add_zero, Nat.mul_add, ← Nat.add_assoc, hout]
      rw [Nat.mul_add, Nat.mul_left_comm]
    have hpre' : pre + B64 ^ i * y < B64 ^ (i + 1) := by
      rw [pow_succ]
      have : B64 ^ i * (y + 1) ≤ B64 ^ i * B64 := Nat.mul_le_mul_left _ hy
      rw [Nat.mul_add, Nat.mul_one] at this
      omega
    obtain ⟨r1, r2, r3⟩ := ih (i + 1) out' (pre + B64 ^ i * y) hys hw' (by rw [hlen']; omega) hv' hpre'
    refine ⟨by rw [r1, hlen'], r2, ?_⟩
    rw [r3, val_cons, pow_succ, Nat.mul_add (B64 ^ i) y, ← Nat.add_assoc, Nat.mul_assoc (B64 ^ i)]

theorem mulRaw_spec (x y : List ℕ) (hx : Words x) (hy : Words y) (hx0 : 0 < x.length)
    (hy0 : 0 < y.length) :
    (mulRaw x y).length = x.length + y.length ∧ Words (mulRaw x y) ∧
    val (mulRaw x y) = val x * val y := by
  have main : ∀ x y : List ℕ, Words x → Words y → 0 < y.length →
      (match y with
        | [] => []
        | y0 :: ys => mulLoop x ys 1 (mul1 x y0 ++ List.replicate (y.length - 1) 0)).length
          = x.length + y.length ∧
      Words (match y with
        | [] => []
        | y0 :: ys => mulLoop x ys 1 (mul1 x y0 ++ List.replicate (y.length - 1) 0)) ∧
      val (match y with
        | [] => []
        | y0 :: ys => mulLoop x ys 1 (mul1 x y0 ++ List.replicate (y.length - 1) 0))
          = val x * val y := by
    intro x y hx hy hy0
    cases y with
    | nil => simp at hy0
    | cons y0 ys =>
      rw [words_cons] at hy
      obtain ⟨m1, m2, m3⟩ := mul1_spec x y0 hx hy.1
      have hlen : (mul1 x y0 ++ List.replicate ((y0 :: ys).length - 1) 0).length
          = 1 + x.length + ys.length := by simp [m1]; omega
      have hw : Words (mul1 x y0 ++ List.replicate ((y0 :: ys).length - 1) 0) :=
        words_append.2 ⟨m2, words_replicate_zero _⟩
      obtain ⟨r1, r2, r3⟩ := mulLoop_spec x ys 1 _ y0 hx hy.2 hw hlen
        (by rw [val_append, m3]; simp) (by simpa using hy.1)
      simp only
      refine ⟨by rw [r1, hlen]; simp; omega, r2, ?_⟩
      rw [r3, val_cons, pow_one]
  unfold mulRaw
  split
  rename_i px py heq
  split at heq
  · injection heq with e1 e2
    subst e1 e2
    obtain ⟨h1, h2, h3⟩ := main y x hy hx hx0
    exact ⟨h1.trans (by omega), h2, h3.trans (by ring)⟩
  · injection heq with e1 e2
    subst e1 e2
    exact main x y hx hy hy0

theorem mul_spec {x y : List ℕ} (hx : WF x) (hy : WF y) :
    (x.length + y.length ≤ 9 → ∃ z, mul x y = .ok z ∧ WF z ∧ val z = val x * val y) ∧
    (9 < x.length + y.length → mul x y = .exit) := by
  obtain ⟨a1, a2, a3⟩ := mulRaw_spec x y hx.isWords hy.isWords hx.pos hy.pos
  constructor
  · intro h
    unfold mul
    rw [alloc_ok h]
    refine ⟨_, rfl, wf_trim (by have := hx.pos; omega) a2 (by omega), by rw [val_trim, a3]⟩
  · intro h
    unfold mul
    rw [alloc_exit h]; rfl

theorem divUnit_spec {x : List ℕ} {y : ℕ} (hx : WF x) (hy : 0 < y) :
    ∃ q r, divUnit x y = .ok (q, r) ∧ WF q ∧ val q = val x / y ∧ r = val x % y := by
  obtain ⟨a1, a2, a3, a4⟩ := div1_spec x y hx.isWords hy
  unfold divUnit
  rw [if_neg (by omega), alloc_ok hx.len]
  have hp := hx.pos
  refine ⟨_, _, rfl, wf_trim (by omega) a2 (by have := hx.len; omega), ?_, ?_⟩
  · rw [val_trim, a4]
    rw [Nat.mul_comm, Nat.mul_add_div hy, Nat.div_eq_of_lt a3, Nat.add_zero]
  · rw [a4, Nat.mul_comm, Nat.mul_add_mod, Nat.mod_eq_of_lt a3]

theorem isZero_iff {x : List ℕ} (hx : WF x) : isZero x = true ↔ val x = 0 := by
  constructor
  · intro h
    unfold isZero at h
    simp at h
    obtain ⟨h1, h2⟩ := h
    cases x with
    | nil => simp at h1
    | cons a as =>
      simp at h1 h2
      simp [h1, h2]
  · intro h
    have h0 : WF [0] := by decide
    have := hx.ext h0 (by simp [h])
    subst this; rfl

end Vuint
end Verif
