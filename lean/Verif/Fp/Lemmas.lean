import Verif.Fp.Model
import Verif.Fp.Spec
import Verif.Fp.WordInv
import Verif.Vuint.ProgLemmas

namespace Verif.Fp

theorem p_lt_W : 4 * p < W256 := by rw [p_eq]; norm_num

theorem p_pos : 0 < p := by rw [p_eq]; norm_num

theorem lt_W {x : ℕ} (h : x < p) : x < W256 := by have := p_lt_W; omega

theorem add_val {x y : ℕ} (hx : x < p) (hy : y < p) : add x y = (x + y) % p := by
  have h4 := p_lt_W
  unfold add
  rw [wAdd_val (by rw [W4.val_of_lt (lt_W hx), W4.val_of_lt (lt_W hy)]; omega),
    W4.val_of_lt (lt_W hx), W4.val_of_lt (lt_W hy)]
  split
  · rw [Nat.mod_eq_of_lt (by omega)]
  · rw [Nat.mod_eq_sub_mod (by omega), Nat.mod_eq_of_lt (by omega)]

theorem sub_val {x y : ℕ} (hx : x < p) (hy : y < p) : sub x y = (x + p - y) % p := by
  have h4 := p_lt_W
  unfold sub
  rw [wSub_val (W4.of_ok _) (W4.of_ok _), W4.val_of_lt (lt_W hx), W4.val_of_lt (lt_W hy)]
  split
  · rw [show x + p - y = (x - y) + p by omega, Nat.add_mod_right, Nat.mod_eq_of_lt (by omega)]
  · rw [show x + W256 - y + p = (x + p - y) + W256 by omega, Nat.add_mod_right,
      Nat.mod_eq_of_lt (by omega), Nat.mod_eq_of_lt (by omega)]

theorem neg_val {x : ℕ} (hx : x < p) : neg x = (p - x) % p := by
  unfold neg
  rw [wNeg_val (W4.of_ok _) (by rw [W4.val_of_lt (lt_W hx)]; omega), W4.val_of_lt (lt_W hx)]
  split
  · rename_i h; rw [h, Nat.sub_zero, Nat.mod_self]
  · rw [Nat.mod_eq_of_lt (by omega)]

/-- Wide form of `Fp::mul`: also covers the unreduced operands the callers pass. -/
theorem mul_wide {x y : ℕ} (hX : x + p ≤ W256) (hy : y < W256) (hXY : x * y < p * W256) :
    mul x y < p ∧ W256 * mul x y % p = x * y % p := by
  unfold mul
  have hx : x < W256 := by have := p_pos; omega
  have h := wMul_spec (W4.of_ok x) (W4.of_ok y) (by rw [W4.val_of_lt hx]; exact hX)
    (by rw [W4.val_of_lt hx, W4.val_of_lt hy]; exact hXY)
  rw [W4.val_of_lt hx, W4.val_of_lt hy] at h
  exact h.2

theorem mul_spec {x y : ℕ} (hx : x < p) (hy : y < p) :
    mul x y < p ∧ W256 * mul x y % p = x * y % p := by
  have h4 := p_lt_W
  refine mul_wide (by omega) (lt_W hy) ?_
  calc x * y ≤ x * W256 := Nat.mul_le_mul_left _ (lt_W hy).le
    _ < p * W256 := Nat.mul_lt_mul_of_pos_right hx (by norm_num)

theorem mul_lt {x y : ℕ} (hx : x < p) (hy : y < p) : mul x y < p := (mul_spec hx hy).1
theorem add_lt {x y : ℕ} (hx : x < p) (hy : y < p) : add x y < p := by
  rw [add_val hx hy]; exact Nat.mod_lt _ p_pos
theorem sub_lt {x y : ℕ} (hx : x < p) (hy : y < p) : sub x y < p := by
  rw [sub_val hx hy]; exact Nat.mod_lt _ p_pos
theorem neg_lt {x : ℕ} (hx : x < p) : neg x < p := by
  rw [neg_val hx]; exact Nat.mod_lt _ p_pos

theorem addNC_val {x y : ℕ} (h : x + y < W256) : addNC x y = x + y := by
  unfold addNC
  rw [wAddNC_val, W4.val_of_lt (by omega), W4.val_of_lt (by omega), Nat.mod_eq_of_lt h]

theorem subNC_val {x y : ℕ} (hx : x < W256) (h : y ≤ x) : subNC x y = x - y := by
  unfold subNC
  rw [wSubNC_val (W4.of_ok _) (W4.of_ok _), W4.val_of_lt hx, W4.val_of_lt (by omega)]
  rw [show x + (W256 - y) = (x - y) + W256 by omega, Nat.add_mod_right, Nat.mod_eq_of_lt (by omega)]

theorem divBy2_spec {x : ℕ} (hx : x < p) : divBy2 x < p ∧ 2 * divBy2 x = x + p * (x % 2) := by
  unfold divBy2
  have h := wDivBy2_val (W4.of_ok x) (by rw [W4.val_of_lt (lt_W hx)]; exact hx)
  rw [W4.val_of_lt (lt_W hx)] at h; exact h

theorem divBy4_spec {x : ℕ} (hx : x < p) : divBy4 x < p ∧ 4 * divBy4 x = x + p * (x % 4) := by
  unfold divBy4
  have h := wDivBy4_val (W4.of_ok x) (by rw [W4.val_of_lt (lt_W hx)]; exact hx)
  rw [W4.val_of_lt (lt_W hx)] at h; exact h

theorem fastModp_val {x : ℕ} (hx : x < 7 * 2 ^ 253) : fastModp x = x % p := by
  unfold fastModp
  have hW : x < W256 := by norm_num at hx; omega
  have h := wFastModp_spec (W4.of_ok x) (by rw [W4.val_of_lt hW]; exact hx)
  rw [W4.val_of_lt hW] at h; exact h.2

theorem add2z3x_val {z x : ℕ} (hz : z < p) (hx : x < p) : add2z3x z x = (2 * z + 3 * x) % p := by
  unfold add2z3x
  have h := w2zAdd3x_spec (z := W4.of z) (x := W4.of x) (by rw [W4.val_of_lt (lt_W hz)]; exact hz)
    (by rw [W4.val_of_lt (lt_W hx)]; exact hx)
  rw [W4.val_of_lt (lt_W hz), W4.val_of_lt (lt_W hx)] at h; exact h.2

/-! ### double width -/

theorem pN_lt : 4 * (p * W256) < W512 := by rw [p_eq]; norm_num
theorem pN_lt' : p * W256 < W512 := by rw [p_eq]; norm_num

theorem dblAdd_val {x y : ℕ} (h : x + y < W512) :
    dblAdd x y = if x + y < p * W256 then x + y else x + y - p * W256 := by
  unfold dblAdd
  have ex : (W8.of x).val = x := W8.val_of_lt (by omega)
  have ey : (W8.of y).val = y := W8.val_of_lt (by omega)
  rw [dAdd_val (by rw [ex, ey]; exact h), ex, ey]

theorem dblSub_val {x y : ℕ} (hx : x < W512) (hy : y < W512) (h : y ≤ x + p * W256) :
    dblSub x y = if y ≤ x then x - y else x + p * W256 - y := by
  unfold dblSub
  have ex : (W8.of x).val = x := W8.val_of_lt hx
  have ey : (W8.of y).val = y := W8.val_of_lt hy
  rw [dSub_val (W8.of_ok _) (W8.of_ok _) (by rw [ex, ey]; exact h), ex, ey]

theorem dblAddNC_val {x y : ℕ} (h : x + y < W512) : dblAddNC x y = x + y := by
  unfold dblAddNC
  rw [dAddNC_val, W8.val_of_lt (by omega), W8.val_of_lt (by omega), Nat.mod_eq_of_lt h]

theorem dblSubNC_val {x y : ℕ} (hx : x < W512) (h : y ≤ x) : dblSubNC x y = x - y := by
  unfold dblSubNC
  have ex : (W8.of x).val = x := W8.val_of_lt hx
  have ey : (W8.of y).val = y := W8.val_of_lt (by omega)
  rw [dSubNC_val (W8.of_ok _) (W8.of_ok _) (by rw [ex, ey]; exact h), ex, ey]

theorem dblNeg_val {x : ℕ} (h : x ≤ p * W256) : dblNeg x = p * W256 - x := by
  unfold dblNeg
  have ex : (W8.of x).val = x := W8.val_of_lt (lt_of_le_of_lt h pN_lt')
  rw [dNeg_val (W8.of_ok _) (by rw [ex]; exact h), ex]

theorem dblSubOpt1_val {x y : ℕ} (hx : x < W512) (hy : y < W512) (h : y ≤ x + p * (W256 / 4))
    (h' : x + p * (W256 / 4) - y < W512) : dblSubOpt1 x y = x + p * (W256 / 4) - y := by
  unfold dblSubOpt1
  have ex : (W8.of x).val = x := W8.val_of_lt hx
  have ey : (W8.of y).val = y := W8.val_of_lt hy
  rw [dSubOpt1_val (W8.of_ok _) (W8.of_ok _) (by rw [ex, ey]; exact h) (by rw [ex, ey]; exact h'),
    ex, ey]

theorem dblMul_val {x y : ℕ} (hx : x < W256) (hy : y < W256) : dblMul x y = x * y := by
  unfold dblMul
  rw [(mul4x4_spec (W4.of_ok x) (W4.of_ok y)).2, W4.val_of_lt hx, W4.val_of_lt hy]

theorem dblMod_spec {x : ℕ} (h : x < p * W256) : dblMod x < p ∧ W256 * dblMod x % p = x % p := by
  unfold dblMod
  have ex : (W8.of x).val = x := W8.val_of_lt (lt_trans h pN_lt')
  have h := wMod_spec (W8.of_ok x) (by rw [ex]; exact h)
  rw [ex] at h; exact h.2

/-! ### residues -/

theorem W_ne : ((W256 : ℕ) : ZMod p) ≠ 0 := by
  rw [Ne, ZMod.natCast_eq_zero_iff, Nat.dvd_iff_mod_eq_zero, p_eq]; decide +kernel

theorem cast_W : (2 : ZMod p) ^ 256 = ((W256 : ℕ) : ZMod p) := by
  have h : (2 : ℕ) ^ 256 = W256 := by decide +kernel
  rw [← h, Nat.cast_pow]; rfl

theorem two_pow_ne : (2 : ZMod p) ^ 256 ≠ 0 := by rw [cast_W]; exact W_ne

theorem cast_eq_of_mod {a b : ℕ} (h : a % p = b % p) : (a : ZMod p) = b :=
  (ZMod.natCast_eq_natCast_iff' a b p).2 h

theorem cast_mod (a : ℕ) : ((a % p : ℕ) : ZMod p) = a := ZMod.natCast_mod a p

theorem cast_p : (p : ZMod p) = 0 := ZMod.natCast_self p

theorem cast_inj {x y : ℕ} (hx : x < p) (hy : y < p) (h : (x : ZMod p) = y) : x = y := by
  have := (ZMod.natCast_eq_natCast_iff' x y p).1 h
  rwa [Nat.mod_eq_of_lt hx, Nat.mod_eq_of_lt hy] at this

theorem residue_inj {x y : ℕ} (hx : x < p) (hy : y < p) (h : residue x = residue y) : x = y := by
  unfold residue at h
  exact cast_inj hx hy ((div_left_inj' two_pow_ne).1 h)

theorem cast_eq_residue (x : ℕ) : (x : ZMod p) = residue x * 2 ^ 256 := by
  unfold residue; rw [div_mul_cancel₀ _ two_pow_ne]

theorem residue_add {x y : ℕ} (hx : x < p) (hy : y < p) :
    residue (add x y) = residue x + residue y := by
  unfold residue; rw [add_val hx hy, cast_mod]; push_cast; ring

theorem residue_sub {x y : ℕ} (hx : x < p) (hy : y < p) :
    residue (sub x y) = residue x - residue y := by
  unfold residue
  rw [sub_val hx hy, cast_mod, Nat.cast_sub (by omega)]; push_cast; rw [cast_p]; ring

theorem residue_neg {x : ℕ} (hx : x < p) : residue (neg x) = -residue x := by
  unfold residue
  rw [neg_val hx, cast_mod, Nat.cast_sub (by omega), cast_p]; ring

theorem residue_mul_wide {x y : ℕ} (hX : x + p ≤ W256) (hy : y < W256) (hXY : x * y < p * W256) :
    residue (mul x y) = residue x * residue y := by
  have h := cast_eq_of_mod (mul_wide hX hy hXY).2
  push_cast at h
  unfold residue
  rw [div_mul_div_comm, div_eq_div_iff two_pow_ne (mul_ne_zero two_pow_ne two_pow_ne)]
  rw [← h]
  have h2 := cast_W
  push_cast at h2
  rw [← h2]; ring

theorem residue_mul {x y : ℕ} (hx : x < p) (hy : y < p) :
    residue (mul x y) = residue x * residue y := by
  have h4 := p_lt_W
  refine residue_mul_wide (by omega) (lt_W hy) ?_
  calc x * y ≤ x * W256 := Nat.mul_le_mul_left _ (lt_W hy).le
    _ < p * W256 := Nat.mul_lt_mul_of_pos_right hx (by norm_num)

theorem residue_montR : residue montR = 1 := by
  unfold residue montR
  rw [cast_mod, ← cast_W, div_self two_pow_ne]

theorem montR_lt : montR < p := Nat.mod_lt _ p_pos
theorem montR2_lt : montR2 < p := Nat.mod_lt _ p_pos

theorem residue_montR2 : residue montR2 = 2 ^ 256 := by
  have h := residue_montR
  unfold residue at *
  unfold montR2
  rw [cast_mod]; push_cast
  rw [mul_div_assoc, h, mul_one]
  rw [div_eq_one_iff_eq two_pow_ne] at h
  exact h

theorem residue_zero : residue 0 = 0 := by unfold residue; simp

theorem residue_toMont {x : ℕ} (hx : x < p) : residue (toMont x) = x := by
  unfold toMont
  rw [residue_mul hx montR2_lt, residue_montR2]; exact (cast_eq_residue x).symm

theorem residue_dblMod {x : ℕ} (h : x < p * W256) : residue (dblMod x) = residueD x := by
  have h := cast_eq_of_mod (dblMod_spec h).2
  push_cast at h
  unfold residue residueD
  rw [show (2 : ZMod p) ^ 512 = 2 ^ 256 * 2 ^ 256 by rw [← pow_add],
    div_eq_div_iff two_pow_ne (mul_ne_zero two_pow_ne two_pow_ne), ← h]
  have h2 := cast_W
  push_cast at h2
  rw [← h2]; ring

/-! ### inverse -/

theorem dblIter_spec (n : ℕ) : ∀ t, t < p →
    dblIter n t < p ∧ residue (dblIter n t) = residue t * 2 ^ n := by
  induction n with
  | zero => intro t h; exact ⟨h, by simp [dblIter]⟩
  | succ n ih =>
    intro t h
    obtain ⟨h1, h2⟩ := ih (add t t) (add_lt h h)
    refine ⟨h1, ?_⟩
    rw [dblIter, h2, residue_add h h, pow_succ]; ring

theorem invTbl_spec {k : ℕ} (hk : k < 512) :
    invTbl k < p ∧ residue (invTbl k) = 2 ^ (512 - k) := by
  have h2 : 2 < p := by rw [p_eq]; norm_num
  obtain ⟨a, b⟩ := dblIter_spec (511 - k) (mul 2 montR2) (mul_lt h2 montR2_lt)
  refine ⟨a, ?_⟩
  unfold invTbl
  rw [b]
  have := residue_toMont h2
  unfold toMont at this
  rw [this, show 512 - k = (511 - k) + 1 by omega, pow_succ]; push_cast; ring

theorem inv_spec {x : ℕ} (hx : x < p) (h0 : x ≠ 0) :
    ∃ y, inv x = .ok y ∧ y < p ∧ residue x * residue y = 1 := by
  have h4 := p_lt_W
  obtain ⟨r, k, e, rok, rle, hk, hr⟩ := wPreInv_spec (W4.of_ok x)
    (by rw [W4.val_of_lt (lt_W hx)]; exact h0) (by rw [W4.val_of_lt (lt_W hx)]; exact hx)
  rw [W4.val_of_lt (lt_W hx)] at hr
  obtain ⟨t1, t2⟩ := invTbl_spec (k := k) (by omega)
  have hrt : r.val * invTbl k < p * W256 := by
    calc r.val * invTbl k ≤ (2 * p) * p := Nat.mul_le_mul rle t1.le
      _ = p * (2 * p) := by ring
      _ < p * W256 := Nat.mul_lt_mul_of_pos_left (by omega) p_pos
  unfold inv
  rw [e, Res.bind_ok]
  dsimp only
  rw [if_pos (show k < 512 by omega)]
  refine ⟨_, rfl, (mul_wide (by omega) (lt_W t1) hrt).1, ?_⟩
  rw [residue_mul_wide (by omega) (lt_W t1) hrt, t2]
  unfold residue
  have e512 : (2 : ZMod p) ^ (512 - k) * 2 ^ k = 2 ^ 256 * 2 ^ 256 := by
    rw [← pow_add, ← pow_add]; congr 1; omega
  have hne := two_pow_ne
  generalize (2 : ZMod p) ^ 256 = R at *
  rw [← hr] at e512
  field_simp
  linear_combination e512

theorem inv_zero : inv 0 = .ok 0 := by
  have h4 := p_lt_W
  unfold inv
  rw [show wPreInv (W4.of 0) = _ from wPreInv_zero, Res.bind_ok]
  dsimp only
  rw [if_pos (by norm_num), W4.val_of_lt (by omega)]
  obtain ⟨t1, t2⟩ := invTbl_spec (k := 0) (by omega)
  have hrt : 2 * p * invTbl 0 < p * W256 := by
    calc 2 * p * invTbl 0 ≤ (2 * p) * p := Nat.mul_le_mul_left _ t1.le
      _ = p * (2 * p) := by ring
      _ < p * W256 := Nat.mul_lt_mul_of_pos_left (by omega) p_pos
  have hl := (mul_wide (x := 2 * p) (by omega) (lt_W t1) hrt).1
  have hr := residue_mul_wide (x := 2 * p) (by omega) (lt_W t1) hrt
  have hz : residue (2 * p) = 0 := by unfold residue; push_cast; rw [cast_p]; simp
  rw [hz, zero_mul, ← residue_zero] at hr
  rw [residue_inj hl p_pos hr]; rfl

/-! ### halving, squares -/

theorem two_ne : (2 : ZMod p) ≠ 0 := by
  intro h; apply two_pow_ne; rw [h]; exact zero_pow (by norm_num)

theorem residue_divBy2 {x : ℕ} (hx : x < p) : residue (divBy2 x) = residue x / 2 := by
  have h : ((2 * divBy2 x : ℕ) : ZMod p) = x := by
    rw [(divBy2_spec hx).2]; push_cast; rw [cast_p]; ring
  unfold residue
  push_cast at h
  generalize (2 : ZMod p) ^ 256 = R
  rw [← h]; field_simp [two_ne]

theorem residue_divBy4 {x : ℕ} (hx : x < p) : residue (divBy4 x) = residue x / 4 := by
  have h : ((4 * divBy4 x : ℕ) : ZMod p) = x := by
    rw [(divBy4_spec hx).2]; push_cast; rw [cast_p]; ring
  have h4 : (4 : ZMod p) ≠ 0 := by
    rw [show (4 : ZMod p) = 2 * 2 by norm_num]; exact mul_ne_zero two_ne two_ne
  unfold residue
  push_cast at h
  generalize (2 : ZMod p) ^ 256 = R
  rw [← h]; field_simp [h4]

/-! ### set / get -/

theorem pV_wf : WF pV ∧ val pV = p := by decide +kernel
theorem montRV_wf : WF montRV ∧ val montRV = montR := by decide +kernel
theorem pAdd1Div4V_wf : WF pAdd1Div4V ∧ val pAdd1Div4V = (p + 1) / 4 := by decide +kernel

theorem val_take_of_lt {x : List ℕ} (n : ℕ) (hx : WF x) (h : val x < B64 ^ n) (hn : 0 < n) :
    val (x.take n) = val x := by
  by_cases hl : x.length ≤ n
  · rw [List.take_of_length_le hl]
  · exfalso
    have := WF.val_ge hx (by omega)
    have h2 : B64 ^ n ≤ B64 ^ (x.length - 1) := Nat.pow_le_pow_right (by norm_num) (by omega)
    omega

theorem set_spec {x : List ℕ} (hx : WF x) (hl : x.length ≤ 5) :
    ∃ y, set x = .ok y ∧ y < p ∧ residue y = (val x : ZMod p) := by
  obtain ⟨z, e, wz, vz⟩ := (Vuint.mul_spec hx montRV_wf.1).1 (by
    rw [show montRV.length = 4 from rfl]; omega)
  have hp0 : val pV ≠ 0 := by rw [pV_wf.2]; have := p_pos; omega
  obtain ⟨q, r, e2, wq, wr, vq, vr⟩ := (Vuint.div_spec wz pV_wf.1).2.1 hp0
    (Or.inl (by rw [pV_wf.2, p_eq]; norm_num))
  have hr : val r < p := by rw [vr, pV_wf.2]; exact Nat.mod_lt _ p_pos
  have hs : setDirect r = val r :=
    val_take_of_lt 4 wr (by have := p_lt_W; norm_num; omega) (by norm_num)
  refine ⟨setDirect r, ?_, by rw [hs]; exact hr, ?_⟩
  · unfold set; rw [e, Res.bind_ok, e2, Res.bind_ok]; rfl
  · rw [hs, vr, pV_wf.2]
    unfold residue
    rw [cast_mod, vz, montRV_wf.2]
    push_cast
    rw [mul_div_assoc]
    have := residue_montR
    unfold residue at this
    rw [this, mul_one]

theorem set_exit {x : List ℕ} (hx : WF x) (hl : 5 < x.length) : set x = .exit := by
  unfold set
  rw [(Vuint.mul_spec hx montRV_wf.1).2 (by rw [show montRV.length = 4 from rfl]; omega)]
  rfl

theorem one_lt_p : 1 < p := by rw [p_eq]; norm_num

theorem fromMont_spec {x : ℕ} (hx : x < p) : fromMont x < p ∧ (fromMont x : ZMod p) = residue x := by
  refine ⟨mul_lt hx one_lt_p, ?_⟩
  have h := residue_mul hx one_lt_p
  rw [cast_eq_residue]
  unfold fromMont
  rw [h]
  have : residue 1 * 2 ^ 256 = 1 := by rw [← cast_eq_residue]; simp
  rw [mul_assoc, this, mul_one]

theorem setUnits4_spec {t : W4} (hok : t.Ok) :
    ∃ z, Vuint.setUnits [t.w0, t.w1, t.w2, t.w3] = .ok z ∧ WF z ∧ val z = t.val := by
  obtain ⟨o0, o1, o2, o3⟩ := hok
  have hw : Words [t.w0, t.w1, t.w2, t.w3] := by
    simp only [words_cons, words_nil]; exact ⟨o0, o1, o2, o3, trivial⟩
  obtain ⟨z, e, wz, vz⟩ := (setUnits_spec _ hw).1 (show 4 ≤ 9 by omega)
  refine ⟨z, e, wz, ?_⟩
  rw [vz, digitsVal_64]
  simp only [val_cons, val_nil]
  unfold W4.val
  omega

theorem get_spec {x : ℕ} (hx : x < p) :
    ∃ z, get x = .ok z ∧ WF z ∧ val z < p ∧ (val z : ZMod p) = residue x := by
  obtain ⟨h1, h2⟩ := fromMont_spec hx
  obtain ⟨z, e, wz, vz⟩ := setUnits4_spec (W4.of_ok (fromMont x))
  rw [W4.val_of_lt (lt_W h1)] at vz
  rw [← vz] at h1 h2
  exact ⟨z, e, wz, h1, h2⟩

theorem setInt_spec {x : ℤ} (h1 : -2 ^ 31 < x) (h2 : x < 2 ^ 31) :
    ∃ y, setInt x = .ok y ∧ y < p ∧ residue y = (x : ZMod p) := by
  have hp := p_eq
  unfold setInt
  by_cases c0 : x = 0
  · rw [if_pos c0]; exact ⟨0, rfl, p_pos, by rw [residue_zero, c0]; simp⟩
  rw [if_neg c0]
  by_cases c1 : x = 1
  · rw [if_pos c1]; exact ⟨_, rfl, montR_lt, by rw [residue_montR, c1]; simp⟩
  rw [if_neg c1]
  have key : ∀ n : ℕ, n < p → mul n montR2 < p ∧ residue (mul n montR2) = n :=
    fun n hn => ⟨mul_lt hn montR2_lt, residue_toMont hn⟩
  by_cases c2 : 0 < x
  · rw [if_pos c2]
    obtain ⟨k1, k2⟩ := key x.toNat (by omega)
    refine ⟨_, rfl, k1, ?_⟩
    rw [k2, ← Int.cast_natCast, Int.toNat_of_nonneg c2.le]
  · rw [if_neg c2, if_neg (by omega)]
    obtain ⟨k1, k2⟩ := key (-x).toNat (by omega)
    refine ⟨_, rfl, neg_lt k1, ?_⟩
    rw [residue_neg k1, k2, ← Int.cast_natCast, Int.toNat_of_nonneg (by omega)]
    push_cast; ring

theorem isZero_iff {x : ℕ} (hx : x < W256) : isZero x = true ↔ x = 0 := by
  unfold isZero
  simp only [beq_iff_eq]
  rw [W4.zero_iff, W4.val_of_lt hx]

theorem compare_spec {x y : ℕ} (hx : x < W256) (hy : y < W256) :
    (compare x y = 0 ∧ x = y) ∨ (compare x y = 1 ∧ x > y) ∨ (compare x y = -1 ∧ x < y) := by
  have key : ∀ n, n < W256 → val [(W4.of n).w0, (W4.of n).w1, (W4.of n).w2, (W4.of n).w3] = n := by
    intro n hn
    have := W4.val_of_lt hn
    unfold W4.val at this
    simp only [val_cons, val_nil]; omega
  have wk : ∀ n, Words [(W4.of n).w0, (W4.of n).w1, (W4.of n).w2, (W4.of n).w3] := by
    intro n; obtain ⟨o0, o1, o2, o3⟩ := W4.of_ok n
    simp only [words_cons, words_nil]; exact ⟨o0, o1, o2, o3, trivial⟩
  have h := cmpEq_spec [(W4.of x).w0, (W4.of x).w1, (W4.of x).w2, (W4.of x).w3]
    [(W4.of y).w0, (W4.of y).w1, (W4.of y).w2, (W4.of y).w3] (by simp) (wk x) (wk y)
  rw [key x hx, key y hy] at h
  unfold compare cmp
  dsimp only
  rw [if_neg (by simp)]
  exact h

theorem eq_iff {x y : ℕ} (hx : x < W256) (hy : y < W256) : eq x y = true ↔ x = y := by
  unfold eq
  rw [beq_iff_eq]
  rcases compare_spec hx hy with h | h | h <;> omega

end Verif.Fp
