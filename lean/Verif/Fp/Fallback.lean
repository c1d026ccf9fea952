import Verif.Fp.Lemmas

/-!
The portable C routines of zm2.cpp:63-219, which are the initial values of the `Fp` and `Dbl` function
pointers (and stay installed when no code is generated).
-/

namespace Verif.Fp

/-- the four words of a buffer -/
def words4 (x : ℕ) : List ℕ :=
  let a := W4.of x
  [a.w0, a.w1, a.w2, a.w3]

/-- the eight words of a double buffer -/
def words8 (x : ℕ) : List ℕ := words4 x ++ words4 (x / W256)

/-- `Dbl::setDirect`, zm2.h:310-320. -/
def setDirect8 (x : List ℕ) : ℕ := val (x.take 8)

/-- `pN = p << 256`, zm2.cpp:3623, as a `Vuint`. -/
def pNV : List ℕ := [0, 0, 0, 0] ++ pV

/-- `if (a >= m) a -= m;`, zm2.cpp:68-70, 140-142, 207-209. -/
def subIfGe (a m : List ℕ) : Res (List ℕ) :=
  if Vuint.compare a m ≥ 0 then Vuint.sub a m else .ok a

/-- `Fp_addC`, zm2.cpp:63-72. -/
def addC (x y : ℕ) : Res ℕ := do
  let p ← Vuint.setUnits (words4 (pTbl 1).val)
  let a ← Vuint.setUnits (words4 x)
  let b ← Vuint.setUnits (words4 y)
  let a ← Vuint.add a b
  let a ← subIfGe a p
  pure (setDirect a)

/-- `Fp_addNC_C`, zm2.cpp:74-79. -/
def addNC_C (x y : ℕ) : Res ℕ := do
  let a ← Vuint.setUnits (words4 x)
  let b ← Vuint.setUnits (words4 y)
  let a ← Vuint.add a b
  pure (setDirect a)

/-- `Fp_subNC_C`, zm2.cpp:81-86. -/
def subNC_C (x y : ℕ) : Res ℕ := do
  let a ← Vuint.setUnits (words4 x)
  let b ← Vuint.setUnits (words4 y)
  let a ← Vuint.sub a b
  pure (setDirect a)

/-- The conditional of `Fp_subC`, zm2.cpp:92-96.  The else branch subtracts p, as written in the
source. -/
def subCBody (p a b : List ℕ) : Res (List ℕ) :=
  if Vuint.compare a b < 0 then do
    let s ← Vuint.add a p
    Vuint.sub s b
  else Vuint.sub a p

/-- `Fp_subC`, zm2.cpp:88-98. -/
def subC (x y : ℕ) : Res ℕ := do
  let p ← Vuint.setUnits (words4 (pTbl 1).val)
  let a ← Vuint.setUnits (words4 x)
  let b ← Vuint.setUnits (words4 y)
  let a ← subCBody p a b
  pure (setDirect a)

/-- `Fp_negC`, zm2.cpp:110-114, with `Fp::sub` the C routine. -/
def negC (x : ℕ) : Res ℕ := subC 0 x

/-- `Fp_mulC`, zm2.cpp:100-105, as it runs while `Fp::mul` points to it: `x.get()` is
`fromMont(t, x)`, i.e. `Fp::mul(t, x, one_)` (zm2.h:139-142, 158-164), which is this routine again.
The fuel counts nested calls; the part after the recursive call is `y.get()`, the product modulo p and
`out.set` and is left out behind `k` because it is never reached. -/
def mulC (k : ℕ → ℕ → Res ℕ) : ℕ → ℕ → ℕ → Res ℕ
  | 0, _, _ => .diverge
  | n + 1, x, y => do
    let gx ← mulC k n x 1
    let gy ← mulC k n y 1
    k gx gy

/-- `FpDbl_addC`, zm2.cpp:132-144. -/
def dblAddC (x y : ℕ) : Res ℕ := do
  let a ← Vuint.setUnits (words8 x)
  let b ← Vuint.setUnits (words8 y)
  let a ← Vuint.add a b
  let a ← subIfGe a pNV
  pure (setDirect8 a)

/-- `FpDbl_addNC_C`, zm2.cpp:146-153. -/
def dblAddNC_C (x y : ℕ) : Res ℕ := do
  let a ← Vuint.setUnits (words8 x)
  let b ← Vuint.setUnits (words8 y)
  let a ← Vuint.add a b
  pure (setDirect8 a)

/-- `FpDbl_negC`, zm2.cpp:155-160. -/
def dblNegC (x : ℕ) : Res ℕ := do
  let a ← Vuint.setUnits (words8 x)
  if Vuint.isZero a then pure (setDirect8 a)
  else do
    let r ← Vuint.sub pNV a
    pure (setDirect8 r)

/-- `if (a < b) a += m;`, zm2.cpp:170-172. -/
def addIfLt (a b m : List ℕ) : Res (List ℕ) :=
  if Vuint.compare a b < 0 then Vuint.add a m else .ok a

/-- `FpDbl_subC`, zm2.cpp:162-175. -/
def dblSubC (x y : ℕ) : Res ℕ := do
  let a ← Vuint.setUnits (words8 x)
  let b ← Vuint.setUnits (words8 y)
  let a ← addIfLt a b pNV
  let a ← Vuint.sub a b
  pure (setDirect8 a)

/-- `FpDbl_subNC_C`, zm2.cpp:177-184. -/
def dblSubNC_C (x y : ℕ) : Res ℕ := do
  let a ← Vuint.setUnits (words8 x)
  let b ← Vuint.setUnits (words8 y)
  let a ← Vuint.sub a b
  pure (setDirect8 a)

/-- `FpDbl_mulC`, zm2.cpp:186-192. -/
def dblMulC (x y : ℕ) : Res ℕ := do
  let a ← Vuint.setUnits (words4 x)
  let b ← Vuint.setUnits (words4 y)
  let a ← Vuint.mul a b
  pure (setDirect8 a)

/-- loop body of `FpDbl_modC`, zm2.cpp:201-206. -/
def modCRound (c : List ℕ) : Res (List ℕ) := do
  let q := c.getD 0 0 * pp % B64
  let m ← Vuint.mul (Vuint.ofUnit q) pV
  let c ← Vuint.add c m
  Vuint.shr c 64

/-- `FpDbl_modC`, zm2.cpp:194-211. -/
def dblModC (x : ℕ) : Res ℕ := do
  let c ← Vuint.setUnits (words8 x)
  let c ← modCRound c
  let c ← modCRound c
  let c ← modCRound c
  let c ← modCRound c
  let c ← subIfGe c pV
  pure (setDirect c)

/-! ### Specifications -/

theorem setUnits_words4 {x : ℕ} (hx : x < W256) :
    ∃ z, Vuint.setUnits (words4 x) = .ok z ∧ WF z ∧ val z = x := by
  obtain ⟨z, e, w, v⟩ := setUnits4_spec (W4.of_ok x)
  rw [W4.val_of_lt hx] at v
  exact ⟨z, e, w, v⟩

theorem setUnits_words8 {x : ℕ} (hx : x < W512) :
    ∃ z, Vuint.setUnits (words8 x) = .ok z ∧ WF z ∧ val z = x := by
  have v := W8.val_of_lt hx
  unfold W8.val W8.of at v
  have o1 := W4.of_ok x
  have o2 := W4.of_ok (x / W256)
  unfold words8 words4
  dsimp only at *
  generalize W4.of x = l at *
  generalize W4.of (x / W256) = h at *
  obtain ⟨l0, l1, l2, l3⟩ := o1
  obtain ⟨h0, h1, h2, h3⟩ := o2
  have hw : Words ([l.w0, l.w1, l.w2, l.w3] ++ [h.w0, h.w1, h.w2, h.w3]) := by
    simp only [words_append, words_cons, words_nil]
    exact ⟨⟨l0, l1, l2, l3, trivial⟩, h0, h1, h2, h3, trivial⟩
  obtain ⟨z, e, wz, vz⟩ := (setUnits_spec _ hw).1 (show 8 ≤ 9 by omega)
  refine ⟨z, e, wz, ?_⟩
  rw [vz, digitsVal_64, ← v]
  simp only [List.cons_append, List.nil_append, val_cons, val_nil, W4.val]
  omega

theorem pTbl1_val' : (pTbl 1).val = p := pTbl1_val

theorem setDirect_eq {z : List ℕ} (hz : WF z) (h : val z < W256) : setDirect z = val z :=
  val_take_of_lt 4 hz (by norm_num; omega) (by norm_num)

theorem setDirect8_eq {z : List ℕ} (hz : WF z) (h : val z < W512) : setDirect8 z = val z :=
  val_take_of_lt 8 hz (by norm_num; omega) (by norm_num)

theorem pow9 : W512 * 2 ≤ B64 ^ 9 := by decide +kernel

theorem add_ok {a b : List ℕ} (ha : WF a) (hb : WF b) (h : val a + val b < W512 * 2) :
    ∃ z, Vuint.add a b = .ok z ∧ WF z ∧ val z = val a + val b :=
  (Vuint.add_spec ha hb).1 (lt_of_lt_of_le h pow9)

theorem cond_sub_spec {a m : List ℕ} (ha : WF a) (hm : WF m) :
    ∃ z, subIfGe a m = .ok z ∧ WF z ∧
      val z = if val a < val m then val a else val a - val m := by
  unfold subIfGe Vuint.compare
  rcases cmp_spec ha hm with ⟨h1, h2⟩ | ⟨h1, h2⟩ | ⟨h1, h2⟩
  · rw [if_pos (by omega), if_neg (by omega)]
    exact (Vuint.sub_spec ha hm).1 (by omega)
  · rw [if_pos (by omega), if_neg (by omega)]
    exact (Vuint.sub_spec ha hm).1 (by omega)
  · rw [if_neg (by omega), if_pos h2]
    exact ⟨a, rfl, ha, rfl⟩

theorem addC_spec {x y : ℕ} (hx : x < p) (hy : y < p) : addC x y = .ok (add x y) := by
  have h4 := p_lt_W
  obtain ⟨pz, ep, wp, vp⟩ := setUnits_words4 (show (pTbl 1).val < W256 by rw [pTbl1_val]; omega)
  obtain ⟨a, ea, wa, va⟩ := setUnits_words4 (lt_W hx)
  obtain ⟨b, eb, wb, vb⟩ := setUnits_words4 (lt_W hy)
  obtain ⟨s, es, ws, vs⟩ := add_ok wa wb (by omega)
  obtain ⟨c, ec, wc, vc⟩ := cond_sub_spec ws wp
  rw [pTbl1_val] at vp
  unfold addC
  rw [ep, Res.bind_ok, ea, Res.bind_ok, eb, Res.bind_ok, es, Res.bind_ok, ec, Res.bind_ok,
    Res.pure_eq, add_val hx hy]
  have : val c = (x + y) % p := by
    rw [vc, vp, vs, va, vb]
    split
    · rw [Nat.mod_eq_of_lt (by omega)]
    · rw [Nat.mod_eq_sub_mod (by omega), Nat.mod_eq_of_lt (by omega)]
  have hl : (x + y) % p < p := Nat.mod_lt _ p_pos
  rw [setDirect_eq wc (by omega), this]

theorem addNC_C_spec {x y : ℕ} (h : x + y < W256) : addNC_C x y = .ok (x + y) := by
  obtain ⟨a, ea, wa, va⟩ := setUnits_words4 (show x < W256 by omega)
  obtain ⟨b, eb, wb, vb⟩ := setUnits_words4 (show y < W256 by omega)
  obtain ⟨s, es, ws, vs⟩ := add_ok wa wb (by omega)
  unfold addNC_C
  rw [ea, Res.bind_ok, eb, Res.bind_ok, es, Res.bind_ok, Res.pure_eq,
    setDirect_eq ws (by omega), vs, va, vb]

theorem subNC_C_spec {x y : ℕ} (hx : x < W256) (h : y ≤ x) : subNC_C x y = .ok (x - y) := by
  obtain ⟨a, ea, wa, va⟩ := setUnits_words4 hx
  obtain ⟨b, eb, wb, vb⟩ := setUnits_words4 (show y < W256 by omega)
  obtain ⟨s, es, ws, vs⟩ := (Vuint.sub_spec wa wb).1 (by omega)
  unfold subNC_C
  rw [ea, Res.bind_ok, eb, Res.bind_ok, es, Res.bind_ok, Res.pure_eq,
    setDirect_eq ws (by omega), vs, va, vb]

theorem subC_lt {x y : ℕ} (hx : x < p) (hy : y < p) (h : x < y) : subC x y = .ok (sub x y) := by
  have h4 := p_lt_W
  obtain ⟨pz, ep, wp, vp⟩ := setUnits_words4 (show (pTbl 1).val < W256 by rw [pTbl1_val]; omega)
  obtain ⟨a, ea, wa, va⟩ := setUnits_words4 (lt_W hx)
  obtain ⟨b, eb, wb, vb⟩ := setUnits_words4 (lt_W hy)
  rw [pTbl1_val] at vp
  obtain ⟨s, es, ws, vs⟩ := add_ok wa wp (by omega)
  obtain ⟨c, ec, wc, vc⟩ := (Vuint.sub_spec ws wb).1 (by omega)
  unfold subC subCBody Vuint.compare
  have hc : cmp a b < 0 := by rcases cmp_spec wa wb with ⟨h1, h2⟩ | ⟨h1, h2⟩ | ⟨h1, h2⟩ <;> omega
  rw [ep, Res.bind_ok, ea, Res.bind_ok, eb, Res.bind_ok, if_pos hc, es, Res.bind_ok, ec, Res.bind_ok,
    Res.pure_eq, sub_val hx hy, setDirect_eq wc (by omega)]
  rw [Nat.mod_eq_of_lt (by omega)]
  congr 1; omega

theorem subC_ge {x y : ℕ} (hx : x < p) (h : y ≤ x) : ∀ z, subC x y ≠ .ok z := by
  have h4 := p_lt_W
  obtain ⟨pz, ep, wp, vp⟩ := setUnits_words4 (show (pTbl 1).val < W256 by rw [pTbl1_val]; omega)
  obtain ⟨a, ea, wa, va⟩ := setUnits_words4 (lt_W hx)
  obtain ⟨b, eb, wb, vb⟩ := setUnits_words4 (show y < W256 by omega)
  rw [pTbl1_val] at vp
  unfold subC subCBody Vuint.compare
  have hc : ¬ cmp a b < 0 := by
    rcases cmp_spec wa wb with ⟨h1, h2⟩ | ⟨h1, h2⟩ | ⟨h1, h2⟩ <;> omega
  rw [ep, Res.bind_ok, ea, Res.bind_ok, eb, Res.bind_ok, if_neg hc]
  intro z hz
  by_cases hl : a.length < pz.length
  · rw [(Vuint.sub_spec wa wp).2.2 hl] at hz; simp at hz
  · rw [(Vuint.sub_spec wa wp).2.1 (by omega) (by omega)] at hz; simp at hz

theorem mulC_diverge (k : ℕ → ℕ → Res ℕ) (n : ℕ) : ∀ x y, mulC k n x y = .diverge := by
  induction n with
  | zero => intro x y; rfl
  | succ n ih => intro x y; rw [mulC, ih]; rfl

theorem pNV_wf : WF pNV ∧ val pNV = p * W256 := by decide +kernel

theorem dblAddC_spec {x y : ℕ} (hx : x < p * W256) (hy : y < p * W256) :
    dblAddC x y = .ok (dblAdd x y) := by
  have h4 := pN_lt
  have hpn := pNV_wf.2
  have hd := dblAdd_val (x := x) (y := y)
  obtain ⟨pN, hN⟩ : ∃ n, n = p * W256 := ⟨_, rfl⟩
  rw [← hN] at h4 hpn hd hx hy
  obtain ⟨a, ea, wa, va⟩ := setUnits_words8 (show x < W512 by omega)
  obtain ⟨b, eb, wb, vb⟩ := setUnits_words8 (show y < W512 by omega)
  obtain ⟨s, es, ws, vs⟩ := add_ok wa wb (by omega)
  obtain ⟨c, ec, wc, vc⟩ := cond_sub_spec ws pNV_wf.1
  unfold dblAddC
  rw [ea, Res.bind_ok, eb, Res.bind_ok, es, Res.bind_ok, ec, Res.bind_ok, Res.pure_eq,
    hd (by omega)]
  rw [hpn, vs, va, vb] at vc
  rw [setDirect8_eq wc (by rw [vc]; split <;> omega), vc]

theorem dblAddNC_C_spec {x y : ℕ} (h : x + y < W512) : dblAddNC_C x y = .ok (x + y) := by
  obtain ⟨a, ea, wa, va⟩ := setUnits_words8 (show x < W512 by omega)
  obtain ⟨b, eb, wb, vb⟩ := setUnits_words8 (show y < W512 by omega)
  obtain ⟨s, es, ws, vs⟩ := add_ok wa wb (by omega)
  unfold dblAddNC_C
  rw [ea, Res.bind_ok, eb, Res.bind_ok, es, Res.bind_ok, Res.pure_eq,
    setDirect8_eq ws (by omega), vs, va, vb]

theorem dblSubNC_C_spec {x y : ℕ} (hx : x < W512) (h : y ≤ x) : dblSubNC_C x y = .ok (x - y) := by
  obtain ⟨a, ea, wa, va⟩ := setUnits_words8 hx
  obtain ⟨b, eb, wb, vb⟩ := setUnits_words8 (show y < W512 by omega)
  obtain ⟨s, es, ws, vs⟩ := (Vuint.sub_spec wa wb).1 (by omega)
  unfold dblSubNC_C
  rw [ea, Res.bind_ok, eb, Res.bind_ok, es, Res.bind_ok, Res.pure_eq,
    setDirect8_eq ws (by omega), vs, va, vb]

theorem dblNegC_spec {x : ℕ} (hx : x < p * W256) :
    dblNegC x = .ok (if x = 0 then 0 else p * W256 - x) := by
  have h4 := pN_lt
  have hpn := pNV_wf.2
  obtain ⟨pN, hN⟩ : ∃ n, n = p * W256 := ⟨_, rfl⟩
  rw [← hN] at h4 hpn hx ⊢
  obtain ⟨a, ea, wa, va⟩ := setUnits_words8 (show x < W512 by omega)
  obtain ⟨s, es, ws, vs⟩ := (Vuint.sub_spec pNV_wf.1 wa).1 (by omega)
  unfold dblNegC
  rw [ea, Res.bind_ok]
  by_cases h0 : x = 0
  · rw [if_pos ((Vuint.isZero_iff wa).2 (by omega)), if_pos h0, Res.pure_eq,
      setDirect8_eq wa (by omega), va, h0]
  · rw [if_neg (fun h => h0 (by rw [← va]; exact (Vuint.isZero_iff wa).1 h)), if_neg h0, es,
      Res.bind_ok, Res.pure_eq, setDirect8_eq ws (by omega), vs, hpn, va]

theorem dblSubC_spec {x y : ℕ} (hx : x < p * W256) (hy : y < p * W256) :
    dblSubC x y = .ok (dblSub x y) := by
  have h4 := pN_lt
  have hpn := pNV_wf.2
  have hd := dblSub_val (x := x) (y := y)
  obtain ⟨pN, hN⟩ : ∃ n, n = p * W256 := ⟨_, rfl⟩
  rw [← hN] at h4 hpn hd hx hy
  obtain ⟨a, ea, wa, va⟩ := setUnits_words8 (show x < W512 by omega)
  obtain ⟨b, eb, wb, vb⟩ := setUnits_words8 (show y < W512 by omega)
  obtain ⟨s, es, ws, vs⟩ := add_ok wa pNV_wf.1 (by omega)
  unfold dblSubC addIfLt Vuint.compare
  rw [ea, Res.bind_ok, eb, Res.bind_ok, hd (by omega) (by omega) (by omega)]
  have hc := cmp_spec wa wb
  by_cases h : y ≤ x
  · obtain ⟨c, ec, wc, vc⟩ := (Vuint.sub_spec wa wb).1 (by omega)
    rw [if_pos h, if_neg (by omega), Res.bind_ok, ec, Res.bind_ok, Res.pure_eq,
      setDirect8_eq wc (by omega), vc, va, vb]
  · obtain ⟨c, ec, wc, vc⟩ := (Vuint.sub_spec ws wb).1 (by omega)
    rw [if_neg h, if_pos (by omega), es, Res.bind_ok, ec, Res.bind_ok, Res.pure_eq,
      setDirect8_eq wc (by omega), vc, vs, hpn, va, vb]

theorem length_le_of_lt {x : List ℕ} (n : ℕ) (hx : WF x) (h : val x < B64 ^ n) (hn : 0 < n) :
    x.length ≤ n := by
  by_contra hl
  have := WF.val_ge hx (by omega)
  have h2 : B64 ^ n ≤ B64 ^ (x.length - 1) := Nat.pow_le_pow_right (by norm_num) (by omega)
  omega

theorem dblMulC_spec {x y : ℕ} (hx : x < W256) (hy : y < W256) : dblMulC x y = .ok (x * y) := by
  obtain ⟨a, ea, wa, va⟩ := setUnits_words4 hx
  obtain ⟨b, eb, wb, vb⟩ := setUnits_words4 hy
  have la := length_le_of_lt 4 wa (by norm_num; omega) (by norm_num)
  have lb := length_le_of_lt 4 wb (by norm_num; omega) (by norm_num)
  obtain ⟨s, es, ws, vs⟩ := (Vuint.mul_spec wa wb).1 (by omega)
  have hlt : x * y < W512 := by
    calc x * y ≤ x * W256 := Nat.mul_le_mul_left _ hy.le
      _ < W256 * W256 := Nat.mul_lt_mul_of_pos_right hx (by norm_num)
      _ = W512 := by norm_num
  unfold dblMulC
  rw [va, vb] at vs
  rw [ea, Res.bind_ok, eb, Res.bind_ok, es, Res.bind_ok, Res.pure_eq,
    setDirect8_eq ws (by omega), vs]

theorem modCRound_spec {c : List ℕ} (hc : WF c) (hl : val c < W512) :
    ∃ z, modCRound c = .ok z ∧ WF z ∧ ∃ q, q < B64 ∧ B64 * val z = val c + q * p := by
  have hq : c.getD 0 0 * pp % B64 < B64 := Nat.mod_lt _ (by norm_num)
  have h0 : c.getD 0 0 = val c % B64 := by
    cases c with
    | nil => exact absurd hc.pos (by simp)
    | cons w ws =>
      have := hc.isWords w (by simp)
      simp only [List.getD_cons_zero, val_cons]; omega
  have hpv := pV_wf.2
  have hp := p_eq
  obtain ⟨m, em, wm, vm⟩ := (Vuint.mul_spec (Vuint.wf_ofUnit hq) pV_wf.1).1 (by
    rw [show pV.length = 4 from rfl, show ∀ w, (Vuint.ofUnit w).length = 1 from fun _ => rfl]
    omega)
  have hu : val (Vuint.ofUnit (c.getD 0 0 * pp % B64)) = c.getD 0 0 * pp % B64 := by
    simp [Vuint.ofUnit]
  rw [hu, hpv] at vm
  obtain ⟨s, es, ws, vs⟩ := add_ok hc wm (by
    have : val m ≤ B64 * p := by rw [vm]; exact Nat.mul_le_mul_right _ hq.le
    omega)
  obtain ⟨z, ez, wz, vz⟩ := Vuint.shr_spec 64 ws
  refine ⟨z, ?_, wz, c.getD 0 0 * pp % B64, hq, ?_⟩
  · unfold modCRound; dsimp only
    rw [em, Res.bind_ok, es, Res.bind_ok, ez]
  · obtain ⟨k, hk⟩ := q_spec (val c % B64)
    rw [vz, vs, vm, h0]
    generalize val c % B64 * pp % B64 * p = t at *
    norm_num only
    omega

theorem dblModC_spec {x : ℕ} (hx : x < p * W256) :
    ∃ y, dblModC x = .ok y ∧ y < p ∧ W256 * y % p = x % p := by
  have h4 := p_lt_W
  obtain ⟨c, ec, wc, vc⟩ := setUnits_words8 (show x < W512 from lt_trans hx pN_lt')
  have hW : x < W512 := lt_trans hx pN_lt'
  obtain ⟨pN, hN⟩ : ∃ n, n = p * W256 := ⟨_, rfl⟩
  rw [← hN] at hx
  have hN' : pN = W256 * p := by rw [hN, Nat.mul_comm]
  clear hN
  have step : ∀ c, WF c → val c < W512 → ∃ z, modCRound c = .ok z ∧ WF z ∧ val z < W512 ∧
      ∃ q, q < B64 ∧ B64 * val z = val c + q * p := by
    intro c wc hc
    obtain ⟨z, e, wz, q, hq, h⟩ := modCRound_spec wc hc
    refine ⟨z, e, wz, ?_, q, hq, h⟩
    have : q * p ≤ B64 * p := Nat.mul_le_mul_right _ hq.le
    generalize q * p = t at *
    omega
  obtain ⟨c1, e1, w1, l1, q1, hq1, h1⟩ := step c wc (by omega)
  obtain ⟨c2, e2, w2, l2, q2, hq2, h2⟩ := step c1 w1 l1
  obtain ⟨c3, e3, w3, l3, q3, hq3, h3⟩ := step c2 w2 l2
  obtain ⟨c4, e4, w4, l4, q4, hq4, h5⟩ := step c3 w3 l3
  obtain ⟨d, ed, wd, vd⟩ := cond_sub_spec w4 pV_wf.1
  rw [pV_wf.2] at vd
  obtain ⟨Q, hQ⟩ : ∃ Q, Q = q1 + B64 * (q2 + B64 * (q3 + B64 * q4)) := ⟨_, rfl⟩
  have hQl : Q < W256 := by omega
  have htot : W256 * val c4 = x + Q * p := by
    rw [hQ]
    have e : (q1 + B64 * (q2 + B64 * (q3 + B64 * q4))) * p
      = q1 * p + B64 * (q2 * p + B64 * (q3 * p + B64 * (q4 * p))) := by ring
    rw [e]
    generalize q1 * p = t1 at *
    generalize q2 * p = t2 at *
    generalize q3 * p = t3 at *
    generalize q4 * p = t4 at *
    omega
  have hc4 : val c4 < 2 * p := by
    have : Q * p < W256 * p := Nat.mul_lt_mul_of_pos_right hQl p_pos
    refine Nat.lt_of_mul_lt_mul_left (a := W256) ?_
    rw [htot, show W256 * (2 * p) = W256 * p + W256 * p by ring, ← hN']
    rw [← hN'] at this
    exact Nat.add_lt_add hx this
  obtain ⟨s1, s2⟩ := cond_sub hc4
  rw [← vd] at s1 s2
  unfold dblModC
  rw [ec, Res.bind_ok, e1, Res.bind_ok, e2, Res.bind_ok, e3, Res.bind_ok, e4, Res.bind_ok, ed,
    Res.bind_ok]
  refine ⟨_, rfl, ?_, ?_⟩
  · rw [setDirect_eq wd (by omega)]; exact s1
  · rw [setDirect_eq wd (by omega), Nat.mul_mod, s2, ← Nat.mul_mod, htot, Nat.add_mul_mod_self_right]

end Verif.Fp
