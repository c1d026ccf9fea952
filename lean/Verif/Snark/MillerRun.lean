import Verif.Snark.Value
import Verif.Snark.FinalRun

/-!
Concrete runs of the pairing of the SNARK build.  As in FinalRun.lean the runs are evaluated with plain arithmetic modulo p,
proved to store the same buffers as the modelled routines.
-/

namespace Verif.Snark

theorem V2.inj {g : G2} {x y : R2} (hx : V2 g x) (hy : V2 g y) : x = y := sden_inj hx.1 hy.1 (hx.2.trans hy.2.symm)

namespace Fast

/-! ### strict evaluation -/

def str {α : Type} (n : ℕ) (f : ℕ → α) : α := Nat.rec (f 0) (fun k _ => f (k + 1)) n
theorem str_eq {α : Type} (n : ℕ) (f : ℕ → α) : str n f = f n := by cases n <;> rfl
def str2 {α : Type} (x : R2) (f : R2 → α) : α := str x.a fun a => str x.b fun b => f ⟨a, b⟩
theorem str2_eq {α : Type} (x : R2) (f : R2 → α) : str2 x f = f x := by unfold str2; rw [str_eq, str_eq]
def str12 {α : Type} (x : R12) (f : R12 → α) : α :=
  str2 x.a.a fun a => str2 x.a.b fun b => str2 x.a.c fun c => str2 x.b.a fun d => str2 x.b.b fun e =>
  str2 x.b.c fun g => f ⟨⟨a, b, c⟩, ⟨d, e, g⟩⟩
theorem str12_eq {α : Type} (x : R12) (f : R12 → α) : str12 x f = f x := by unfold str12; simp only [str2_eq]

/-! ### arithmetic -/

def fm (x y : R2) : R2 := mix (pr x y) ⟨0, 0⟩
def xiF (x : R2) : R2 := ⟨(9 * x.a + (p - 1) * x.b) % p, (9 * x.b + x.a) % p⟩
def sc (x : R2) (n : ℕ) : R2 := ⟨redc (x.a * n), redc (x.b * n)⟩
def h2 : ℕ := (p + 1) / 2
def h4 : ℕ := h2 * h2 % p
theorem h2_spec : h2 * 2 % p = 1 := by decide +kernel
theorem h4_spec : h4 * 4 % p = 1 := by decide +kernel

theorem cast_one {n m : ℕ} (h : n * m % p = 1) : (n : G2) * m = 1 := by
  have h1 : ((n * m : ℕ) : ZMod p) = ((1 : ℕ) : ZMod p) := by
    rw [ZMod.natCast_eq_natCast_iff]
    show n * m % p = 1 % p
    rw [h]; decide +kernel
  rw [← Nat.cast_mul]
  refine G2.ext ?_ ?_
  · rw [G2.natCast_a, h1, Nat.cast_one]; rfl
  · rw [G2.natCast_b]; rfl
theorem pm1_cast : ((p - 1 : ℕ) : G2) = -1 := by
  refine G2.ext ?_ ?_
  · rw [G2.natCast_a, pm1]; rfl
  · rw [G2.natCast_b]; exact neg_zero.symm

variable {g h : G2} {x y : R2}
theorem vfm (hx : V2 g x) (hy : V2 h y) : V2 (g * h) (fm x y) :=
  ⟨mix_can _ _, by unfold fm; rw [mix_den, pr_den, zero_denD, mul_zero, add_zero, hx.2, hy.2]⟩
theorem vlin (k l : ℕ) (hx : V2 g x) (hy : V2 h y) : V2 (k * g + l * h) (lin k l x y) :=
  ⟨lin_can _ _ _ _, by rw [lin_den, hx.2, hy.2]⟩
theorem vxi (hx : V2 g x) : V2 (G2.xi * g) (xiF x) := by
  refine ⟨⟨Nat.mod_lt _ p_pos, Nat.mod_lt _ p_pos⟩, G2.ext ?_ ?_⟩
  · rw [R2.sden_a, G2.xi_mul_a, ← hx.2]; unfold xiF; dsimp only
    rw [S2.residue_mod, residue_plus, residue_k, residue_k, pm1]; simp only [R2.sden, Nat.cast_ofNat]; ring
  · rw [R2.sden_b, G2.xi_mul_b, ← hx.2]; unfold xiF; dsimp only
    rw [S2.residue_mod, residue_plus, residue_k]; simp only [R2.sden, Nat.cast_ofNat]
theorem vsc (hx : V2 g x) (n : ℕ) : V2 (g * ⟨residue n, 0⟩) (sc x n) := by
  refine ⟨⟨redc_lt _, redc_lt _⟩, G2.ext ?_ ?_⟩
  · rw [R2.sden_a, G2.mul_a, ← hx.2]; unfold sc; dsimp only
    rw [residue_redc, residueD_mul]; simp only [R2.sden]; ring
  · rw [R2.sden_b, G2.mul_b, ← hx.2]; unfold sc; dsimp only
    rw [residue_redc, residueD_mul]; simp only [R2.sden]; ring

/-! ### lines -/

def dbl (bt : R2) (P : ℕ × ℕ) (T : T3) : LineR :=
  str2 (fm T.z T.z) fun zz => str2 (fm T.y T.y) fun yy => str2 (fm bt zz) fun bz => str2 (fm T.y T.z) fun yz =>
  str2 (lin 1 (9 * (p - 1)) yy bz) fun u => str2 (lin 1 9 yy bz) fun v =>
  ⟨⟨xiF (lin 3 (p - 1) bz yy), sc (lin (p - 1) (p - 1) yz yz) P.2, sc (lin 3 0 (fm T.x T.x) yz) P.1⟩,
    lin h2 0 (fm u (fm T.x T.y)) yz, lin h4 (27 * (p - 1)) (fm v v) (fm bz bz), lin 2 0 (fm yy yz) yz⟩

def add (P : ℕ × ℕ) (Q : R2 × R2) (T : T3) : LineR :=
  str2 (lin 1 (p - 1) T.x (fm T.z Q.1)) fun a => str2 (lin 1 (p - 1) T.y (fm T.z Q.2)) fun b =>
  str2 (fm a a) fun aa => str2 (fm a aa) fun a3 => str2 (fm aa T.x) fun ax =>
  str2 (lin 1 1 (fm (fm b b) T.z) (lin 1 (2 * (p - 1)) a3 ax)) fun t =>
  ⟨⟨xiF (lin 1 (p - 1) (fm b Q.1) (fm a Q.2)), sc a P.2, sc (lin (p - 1) 0 b b) P.1⟩,
    fm a t, lin 1 (p - 1) (fm b (lin 1 (p - 1) ax t)) (fm a3 T.y), fm a3 T.z⟩

structure T3C (T : T3) : Prop where
  x : T.x.SCan
  y : T.y.SCan
  z : T.z.SCan
structure LC (e : LineR) : Prop where
  l : e.l.SCan
  t : T3C ⟨e.x, e.y, e.z⟩

section Alg
variable {R : Type} [CommRing R]
theorem d1 {m b y z ξ : R} (hm : m = -1) :
    ξ * (3 * b * (z * z) - y * y) = ξ * (((3 : ℕ) : R) * (b * (z * z)) + m * (y * y)) := by subst hm; push_cast; ring
theorem d2 {m y z : R} (hm : m = -1) : -(2 * y * z) = m * (y * z) + m * (y * z) := by subst hm; ring
theorem d3 {x w : R} : 3 * (x * x) = ((3 : ℕ) : R) * (x * x) + ((0 : ℕ) : R) * w := by push_cast; ring
theorem d4 {m b x y z w e h : R} (hm : m = -9) (hh : h * 2 = 1) (k : 2 * e = (y * y - 9 * b * (z * z)) * x * y) :
    e = h * ((((1 : ℕ) : R) * (y * y) + m * (b * (z * z))) * (x * y)) + ((0 : ℕ) : R) * w := by
  subst hm; push_cast; linear_combination (-e) * hh + h * k
theorem d5 {m b y z e h : R} (hm : m = -27) (hh : h * 4 = 1)
    (k : 4 * e = (y * y + 9 * b * (z * z)) * (y * y + 9 * b * (z * z)) - 108 * (b * b) * (z * z * z * z)) :
    e = h * ((((1 : ℕ) : R) * (y * y) + ((9 : ℕ) : R) * (b * (z * z))) *
      (((1 : ℕ) : R) * (y * y) + ((9 : ℕ) : R) * (b * (z * z)))) + m * (b * (z * z) * (b * (z * z))) := by
  subst hm; push_cast; linear_combination (-e - 27 * b ^ 2 * z ^ 4) * hh + h * k
theorem d6 {y z w : R} : 2 * (y * y * y) * z = ((2 : ℕ) : R) * (y * y * (y * z)) + ((0 : ℕ) : R) * w := by push_cast; ring
theorem a1 {m x z q : R} (hm : m = -1) : x - z * q = ((1 : ℕ) : R) * x + m * (z * q) := by subst hm; push_cast; ring
theorem a2 {m n a b x z t : R} (hn : n = 2 * m) (hm : m = -1) (ht : t = b * b * z + a * a * a - 2 * (a * a * x)) :
    t = ((1 : ℕ) : R) * (b * b * z) + ((1 : ℕ) : R) * (((1 : ℕ) : R) * (a * (a * a)) + n * (a * a * x)) := by
  subst hn hm ht; push_cast; ring
theorem a3 {m a b c d ξ : R} (hm : m = -1) : ξ * (b * c - a * d) = ξ * (((1 : ℕ) : R) * (b * c) + m * (a * d)) := by
  subst hm; push_cast; ring
theorem a4 {m b : R} (hm : m = -1) : -b = m * b + ((0 : ℕ) : R) * b := by subst hm; push_cast; ring
theorem a5 {m a b x y t : R} (hm : m = -1) : b * (a * a * x - t) - a * a * a * y =
    ((1 : ℕ) : R) * (b * (((1 : ℕ) : R) * (a * a * x) + m * t)) + m * (a * (a * a) * y) := by subst hm; push_cast; ring
theorem a6 {a z : R} : a * a * a * z = a * (a * a) * z := by ring
end Alg

theorem m9 : ((9 * (p - 1) : ℕ) : G2) = -9 := by rw [Nat.cast_mul, pm1_cast, mul_neg_one]; rfl
theorem m27 : ((27 * (p - 1) : ℕ) : G2) = -27 := by rw [Nat.cast_mul, pm1_cast, mul_neg_one]; rfl
theorem m2 : ((2 * (p - 1) : ℕ) : G2) = 2 * ((p - 1 : ℕ) : G2) := by rw [Nat.cast_mul]; rfl
theorem k2 : (h2 : G2) * 2 = 1 := by have := cast_one h2_spec; rwa [Nat.cast_ofNat] at this
theorem k4 : (h4 : G2) * 4 = 1 := by have := cast_one h4_spec; rwa [Nat.cast_ofNat] at this

attribute [local irreducible] p h2 h4

theorem dbl_vals {b X Y Z : G2} {bt : R2} {T : T3} (hb : V2 b bt) (vX : V2 X T.x) (vY : V2 Y T.y) (vZ : V2 Z T.z)
    (P : ℕ × ℕ) {ex ey : G2} (x1 : 2 * ex = (Y * Y - 9 * b * (Z * Z)) * X * Y)
    (x2 : 4 * ey = (Y * Y + 9 * b * (Z * Z)) * (Y * Y + 9 * b * (Z * Z)) - 108 * (b * b) * (Z * Z * Z * Z)) :
    V2 (G2.xi * (3 * b * (Z * Z) - Y * Y)) (dbl bt P T).l.a ∧ V2 (-(2 * Y * Z) * ⟨residue P.2, 0⟩) (dbl bt P T).l.b ∧
    V2 (3 * (X * X) * ⟨residue P.1, 0⟩) (dbl bt P T).l.c ∧ V2 ex (dbl bt P T).x ∧ V2 ey (dbl bt P T).y ∧
    V2 (2 * (Y * Y * Y) * Z) (dbl bt P T).z := by
  unfold dbl
  simp only [str2_eq]
  have zz := vfm vZ vZ
  have yy := vfm vY vY
  have bz := vfm hb zz
  have yz := vfm vY vZ
  have u := vlin 1 (9 * (p - 1)) yy bz
  have v := vlin 1 9 yy bz
  refine ⟨?_, ?_, ?_, ?_, ?_, ?_⟩
  · rw [d1 pm1_cast]; exact vxi (vlin 3 (p - 1) bz yy)
  · rw [d2 pm1_cast]; exact vsc (vlin (p - 1) (p - 1) yz yz) P.2
  · rw [d3 (w := Y * Z)]; exact vsc (vlin 3 0 (vfm vX vX) yz) P.1
  · rw [d4 (w := Y * Z) m9 k2 x1]; exact vlin h2 0 (vfm u (vfm vX vY)) yz
  · rw [d5 m27 k4 x2]; exact vlin h4 (27 * (p - 1)) (vfm v v) (vfm bz bz)
  · rw [d6 (w := Y * Z)]; exact vlin 2 0 (vfm yy yz) yz

theorem add_vals {X Y Z q1 q2 A B t : G2} {T : T3} {Q : R2 × R2} (vX : V2 X T.x) (vY : V2 Y T.y) (vZ : V2 Z T.z)
    (v1 : V2 q1 Q.1) (v2 : V2 q2 Q.2) (P : ℕ × ℕ) (hA : A = X - Z * q1) (hB : B = Y - Z * q2)
    (ht : t = B * B * Z + A * A * A - 2 * (A * A * X)) :
    V2 (G2.xi * (B * q1 - A * q2)) (add P Q T).l.a ∧ V2 (A * ⟨residue P.2, 0⟩) (add P Q T).l.b ∧
    V2 (-B * ⟨residue P.1, 0⟩) (add P Q T).l.c ∧ V2 (A * t) (add P Q T).x ∧
    V2 (B * (A * A * X - t) - A * A * A * Y) (add P Q T).y ∧ V2 (A * A * A * Z) (add P Q T).z := by
  unfold add
  simp only [str2_eq]
  have a : V2 A (lin 1 (p - 1) T.x (fm T.z Q.1)) := by rw [hA, a1 pm1_cast]; exact vlin 1 (p - 1) vX (vfm vZ v1)
  have b : V2 B (lin 1 (p - 1) T.y (fm T.z Q.2)) := by rw [hB, a1 pm1_cast]; exact vlin 1 (p - 1) vY (vfm vZ v2)
  have aa := vfm a a
  have a3' := vfm a aa
  have ax := vfm aa vX
  have tt := vlin 1 1 (vfm (vfm b b) vZ) (vlin 1 (2 * (p - 1)) a3' ax)
  rw [← a2 m2 pm1_cast ht] at tt
  refine ⟨?_, ?_, ?_, ?_, ?_, ?_⟩
  · rw [a3 pm1_cast]; exact vxi (vlin 1 (p - 1) (vfm b v1) (vfm a v2))
  · exact vsc a P.2
  · rw [a4 pm1_cast]; exact vsc (vlin (p - 1) 0 b b) P.1
  · exact vfm a tt
  · rw [a5 pm1_cast]; exact vlin 1 (p - 1) (vfm b (vlin 1 (p - 1) ax tt)) (vfm a3' vY)
  · rw [a6]; exact vfm a3' vZ

theorem line_ext' {e f : LineR} {P : ℕ × ℕ} {a b c x y z : G2} (e1 : V2 a e.l.a) (e2 : V2 b (S2.mulFp0 e.l.b P.2))
    (e3 : V2 c (S2.mulFp0 e.l.c P.1)) (e4 : V2 x e.x) (e5 : V2 y e.y) (e6 : V2 z e.z) (f1 : V2 a f.l.a) (f2 : V2 b f.l.b)
    (f3 : V2 c f.l.c) (f4 : V2 x f.x) (f5 : V2 y f.y) (f6 : V2 z f.z) :
    (⟨mulFp6_24_Fp_01 e.l P.1 P.2, e.x, e.y, e.z⟩ : LineR) = f ∧ LC f := by
  refine ⟨?_, ⟨f1.1, f2.1, f3.1⟩, ⟨f4.1, f5.1, f6.1⟩⟩
  unfold mulFp6_24_Fp_01
  obtain ⟨⟨_, _, _⟩, _, _, _⟩ := f
  dsimp only at *
  rw [V2.inj e1 f1, V2.inj e2 f2, V2.inj e3 f3, V2.inj e4 f4, V2.inj e5 f5, V2.inj e6 f6]

theorem dbl_eq {c : Cfg} {bt : R2} (hb : c.binv.SCan) (hbt : V2 (beta c.b82 c.binv) bt) {P : ℕ × ℕ} (hx : P.1 < p)
    (hy : P.2 < p) {T : T3} (hT : T3C T) :
    pointDblLineEval c.b82 c.binv T.x T.y T.z P.1 P.2 = .ok (dbl bt P T) ∧ LC (dbl bt P T) := by
  obtain ⟨e, h1, ⟨a1, a2, a3⟩, ⟨b1, b2, b3⟩, ⟨l1, l2, l3⟩, x1, x2, x3⟩ := dblLine_den (b82 := c.b82) hb hT.x hT.y hT.z
  simp only [pow_succ, pow_zero, one_mul] at l1 l3 x1 x2 x3
  obtain ⟨m1, m2⟩ := S2.mulFp0_wide a2.lt3 hy
  obtain ⟨m3, m4⟩ := S2.mulFp0_wide a3 hx
  rw [l2] at m2
  rw [l3] at m4
  obtain ⟨r1, r2, r3, r4, r5, r6⟩ := dbl_vals hbt ⟨hT.x, rfl⟩ ⟨hT.y, rfl⟩ ⟨hT.z, rfl⟩ P x1 x2
  obtain ⟨e', k⟩ := line_ext' ⟨a1, l1⟩ ⟨m1, m2⟩ ⟨m3, m4⟩ ⟨b1, rfl⟩ ⟨b2, rfl⟩ ⟨b3, x3⟩ r1 r2 r3 r4 r5 r6
  refine ⟨?_, k⟩
  rw [← e']
  unfold pointDblLineEval; rw [h1, Res.bind_ok]; rfl

theorem add_eq {P : ℕ × ℕ} (hx : P.1 < p) (hy : P.2 < p) {T : T3} (hT : T3C T) {Q : R2 × R2} (hq1 : Q.1.SCan)
    (hq2 : Q.2.SCan) :
    pointAddLineEval T.x T.y T.z Q.1 Q.2 P.1 P.2 = .ok (add P Q T) ∧ LC (add P Q T) := by
  obtain ⟨e, h1, ⟨a1, a2, a3⟩, ⟨b1, b2, b3⟩, ⟨l1, l2, l3⟩, x1, x2, x3⟩ := addLine_den hT.x hT.y hT.z hq1 hq2
  simp only [pow_succ, pow_zero, one_mul] at x1 x2 x3
  obtain ⟨m1, m2⟩ := S2.mulFp0_wide a2.lt3 hy
  obtain ⟨m3, m4⟩ := S2.mulFp0_wide a3.lt3 hx
  rw [l2] at m2
  rw [l3] at m4
  obtain ⟨r1, r2, r3, r4, r5, r6⟩ := add_vals ⟨hT.x, rfl⟩ ⟨hT.y, rfl⟩ ⟨hT.z, rfl⟩ ⟨hq1, rfl⟩ ⟨hq2, rfl⟩ P rfl rfl rfl
  obtain ⟨e', k⟩ := line_ext' ⟨a1, l1⟩ ⟨m1, m2⟩ ⟨m3, m4⟩ ⟨b1, x1⟩ ⟨b2, x2⟩ ⟨b3, x3⟩ r1 r2 r3 r4 r5 r6
  refine ⟨?_, k⟩
  rw [← e']
  unfold pointAddLineEval; rw [h1, Res.bind_ok]; rfl

theorem add_eq' {P : ℕ × ℕ} (hx : P.1 < p) (hy : P.2 < p) {X Y Z : R2} (hT : T3C ⟨X, Y, Z⟩) {Q : R2 × R2} (hq1 : Q.1.SCan)
    (hq2 : Q.2.SCan) :
    pointAddLineEval X Y Z Q.1 Q.2 P.1 P.2 = .ok (add P Q ⟨X, Y, Z⟩) ∧ LC (add P Q ⟨X, Y, Z⟩) := by
  have key : ∀ T : T3, T3C T → T.x = X → T.y = Y → T.z = Z →
      pointAddLineEval X Y Z Q.1 Q.2 P.1 P.2 = .ok (add P Q T) ∧ LC (add P Q T) := by
    intro T hT h1 h2 h3
    rw [← h1, ← h2, ← h3]
    exact add_eq hx hy hT hq1 hq2
  exact key _ hT rfl rfl rfl
theorem dbl_eq' {c : Cfg} {bt : R2} (hb : c.binv.SCan) (hbt : V2 (beta c.b82 c.binv) bt) {P : ℕ × ℕ} (hx : P.1 < p)
    (hy : P.2 < p) {X Y Z : R2} (hT : T3C ⟨X, Y, Z⟩) :
    pointDblLineEval c.b82 c.binv X Y Z P.1 P.2 = .ok (dbl bt P ⟨X, Y, Z⟩) ∧ LC (dbl bt P ⟨X, Y, Z⟩) := by
  have key : ∀ T : T3, T3C T → T.x = X → T.y = Y → T.z = Z →
      pointDblLineEval c.b82 c.binv X Y Z P.1 P.2 = .ok (dbl bt P T) ∧ LC (dbl bt P T) := by
    intro T hT h1 h2 h3
    rw [← h1, ← h2, ← h3]
    exact dbl_eq hb hbt hx hy hT
  exact key _ hT rfl rfl rfl

/-! ### the loop -/

/-- a result of the fast run is a result of the modelled run -/
def Sim {α : Type} (P : α → Prop) (m' m : Res α) : Prop := ∀ y, m' = .ok y → m = .ok y ∧ P y

theorem Sim.pure {α : Type} {P : α → Prop} {a : α} (h : P a) : Sim P (Pure.pure a) (Pure.pure a) := by
  intro y e; cases e; exact ⟨rfl, h⟩
theorem Sim.bind {α β : Type} {P : α → Prop} {Q : β → Prop} {m' m : Res α} (h : Sim P m' m) {g' g : α → Res β}
    (hg : ∀ a, P a → Sim Q (g' a) (g a)) : Sim Q (m' >>= g') (m >>= g) := by
  intro y e
  cases hm : m' with
  | ok a =>
    obtain ⟨h1, h2⟩ := h a hm
    rw [hm] at e
    rw [h1]; exact hg a h2 y e
  | _ => rw [hm] at e; cases e
theorem Sim.ok {α : Type} {P : α → Prop} {m : Res α} {a : α} (h : m = .ok a) (hP : P a) : Sim P (.ok a) m := by
  intro y e; cases e; exact ⟨h, hP⟩

def line (l : R6) : R12 := ⟨⟨l.a, ⟨0, 0⟩, l.c⟩, ⟨⟨0, 0⟩, l.b, ⟨0, 0⟩⟩⟩
theorem line_den (l : R6) : (line l).sden = l.sden.line := by
  have h0 : (⟨0, 0⟩ : R2).sden = 0 := G2.ext residue_zero residue_zero
  unfold line R12.sden R6.sden
  simp only [h0]; rfl

theorem mul024_eq {f : R12} {l : R6} (hf : f.SCan) (hl : l.SCan) : S12.mul024 f l = mul f (line l) := by
  obtain ⟨h1, h2⟩ := S12.mul024_den hf hl
  exact sden12_inj h1 (mul_can _ _) (by rw [h2, mul_den, line_den])
theorem mul024_024_eq {l m : R6} (hl : l.SCan) (hm : m.SCan) : S12.mul024_024 l m = mul (line l) (line m) := by
  obtain ⟨h1, h2⟩ := S12.mul024_024_den hl hm
  exact sden12_inj h1 (mul_can _ _) (by rw [h2, mul_den, line_den, line_den])

def square (x : R12) : Res R12 := do
  let t ← S6.mulGammaAdd x.b x.a
  if ¬ (cb x.b x.a < pN ∧ cb (S6.add x.a x.b) t < pN) then .throw else .ok (mul x x)

theorem square_sim {x : R12} (hx : x.SCan) : Sim R12.SCan (square x) (S12.squareK true x) := by
  obtain ⟨t, e0, -⟩ := S6.mulGammaAdd_den hx.2 hx.1
  intro y e
  unfold square at e
  unfold S12.squareK
  rw [e0, Res.bind_ok] at e ⊢
  split at e
  · cases e
  · rename_i hc
    rw [not_not] at hc
    cases e
    rw [if_neg fun h => h.2 hc]
    obtain ⟨z, e1, c, d⟩ := S12.square_den hx hc.1 (by intro t' e'; rw [e0] at e'; cases e'; exact hc.2)
    rw [e1, sden12_inj c (mul_can x x) (d.trans (mul_den x x).symm)]
    exact ⟨rfl, mul_can x x⟩

structure StC (st : R12 × T3) : Prop where
  f : st.1.SCan
  t : T3C st.2

def strSt {α : Type} (x : R12 × T3) (f : R12 × T3 → α) : α :=
  str12 x.1 fun r => str2 x.2.x fun h => str2 x.2.y fun i => str2 x.2.z fun j => f (r, ⟨h, i, j⟩)
theorem strSt_eq {α : Type} (x : R12 × T3) (f : R12 × T3 → α) : strSt x f = f x := by
  unfold strSt; simp only [str12_eq, str2_eq]

def stepDbl (bt : R2) (P : ℕ × ℕ) (st : R12 × T3) : Res (R12 × T3) := do
  let l := dbl bt P st.2
  let f ← square st.1
  strSt (mul f (line l.l), ⟨l.x, l.y, l.z⟩) fun st => pure st
def stepAdd (Q : R2 × R2) (P : ℕ × ℕ) (st : R12 × T3) : Res (R12 × T3) :=
  let l := add P Q st.2
  strSt (mul st.1 (line l.l), ⟨l.x, l.y, l.z⟩) fun st => pure st
def stepDigit (Q : R2 × R2) (P : ℕ × ℕ) (s : ℤ) (st : R12 × T3) : Res (R12 × T3) :=
  if s > 0 then stepAdd Q P st else if s < 0 then stepAdd (Q.1, S2.neg Q.2) P st else .ok st
def millerLoop (bt : R2) (Q : R2 × R2) (P : ℕ × ℕ) : List ℤ → R12 × T3 → Res (R12 × T3)
  | [], st => .ok st
  | s :: t, st => do
    let st ← stepDbl bt P st
    let st ← stepDigit Q P s st
    millerLoop bt Q P t st
def start (bt : R2) (Q : R2 × R2) (P : ℕ × ℕ) : Res (R12 × T3) :=
  let d := dbl bt P ⟨Q.1, Q.2, ⟨montR, 0⟩⟩
  let e := add P Q ⟨d.x, d.y, d.z⟩
  strSt (mul (line d.l) (line e.l), ⟨e.x, e.y, e.z⟩) fun st => pure st
def frobTwist1 (Q : R2 × R2) : R2 × R2 := (S2.mul (S12.cj Q.1) (g1 1), S2.mul (S12.cj Q.2) (g1 2))
def finish (Q : R2 × R2) (P : ℕ × ℕ) (st : R12 × T3) : Res R12 := do
  let Q1 := frobTwist1 Q
  let Q2 := frobTwist1 Q1
  let d := add P Q1 st.2
  let e := add P (Q2.1, S2.neg Q2.2) ⟨d.x, d.y, d.z⟩
  mulK true st.1 (mul (line d.l) (line e.l))
def miller (bt : R2) (Q : R2 × R2) (P : ℕ × ℕ) : Res R12 := do
  let st ← start bt Q P
  let st ← millerLoop bt Q P (siTbl.drop 2) st
  finish Q P st
def optAte (bt : R2) (Q : R2 × R2) (P : ℕ × ℕ) : Res R12 := do
  let f ← miller bt Q P
  str12 f fun f => do
  let f ← mapToCyclo true f
  str12 f fun f => if ¬ f.SCan then .throw else hardPart f

variable {c : Cfg} {bt : R2} {P : ℕ × ℕ} {Q : R2 × R2}

theorem stepDbl_sim (hb : c.binv.SCan) (hbt : V2 (beta c.b82 c.binv) bt) (hx : P.1 < p) (hy : P.2 < p) {st : R12 × T3}
    (hst : StC st) : Sim StC (stepDbl bt P st) (Snark.stepDbl true c P st) := by
  unfold stepDbl Snark.stepDbl
  obtain ⟨e, k⟩ := dbl_eq hb hbt hx hy hst.t
  rw [e]
  generalize dbl bt P st.2 = d at k ⊢
  rw [Res.bind_ok]
  refine Sim.bind (square_sim hst.f) fun f hf => ?_
  rw [strSt_eq, mul024_eq hf k.l]
  exact Sim.pure ⟨mul_can _ _, k.t⟩

theorem stepAdd_sim (hx : P.1 < p) (hy : P.2 < p) {X Y : R2} (h1 : X.SCan) (h2 : Y.SCan) {st : R12 × T3}
    (hst : StC st) : Sim StC (stepAdd (X, Y) P st) (Snark.stepAdd (X, Y) P st) := by
  unfold stepAdd Snark.stepAdd
  obtain ⟨e, k⟩ := add_eq (Q := (X, Y)) hx hy hst.t h1 h2
  rw [e]
  generalize add P (X, Y) st.2 = d at k ⊢
  rw [Res.bind_ok]
  dsimp only
  rw [strSt_eq, mul024_eq hst.f k.l]
  exact Sim.pure ⟨mul_can _ _, k.t⟩

theorem neg_can {x : R2} (h : x.SCan) : (S2.neg x).SCan := (V2.neg ⟨h, rfl⟩).1

theorem stepDigit_sim (hx : P.1 < p) (hy : P.2 < p) {X Y : R2} (h1 : X.SCan) (h2 : Y.SCan) (s : ℤ) {st : R12 × T3}
    (hst : StC st) : Sim StC (stepDigit (X, Y) P s st) (Snark.stepDigit (X, Y) P s st) := by
  unfold stepDigit Snark.stepDigit
  have h3 := neg_can h2
  dsimp only
  generalize S2.neg Y = Y' at h3 ⊢
  split
  · exact stepAdd_sim hx hy h1 h2 hst
  · split
    · exact stepAdd_sim hx hy h1 h3 hst
    · exact Sim.ok rfl hst

theorem loop_sim (hb : c.binv.SCan) (hbt : V2 (beta c.b82 c.binv) bt) (hx : P.1 < p) (hy : P.2 < p) (h1 : Q.1.SCan)
    (h2 : Q.2.SCan) (t : List ℤ) : ∀ {st : R12 × T3}, StC st →
      Sim StC (millerLoop bt Q P t st) (Snark.millerLoop true c Q P t st) := by
  induction t with
  | nil => intro st hst; exact Sim.ok rfl hst
  | cons s t ih =>
    intro st hst
    unfold millerLoop Snark.millerLoop
    exact Sim.bind (stepDbl_sim hb hbt hx hy hst) fun a ha =>
      Sim.bind (stepDigit_sim (X := Q.1) (Y := Q.2) hx hy h1 h2 s ha) fun b hb => ih hb

theorem one_can : (⟨montR, 0⟩ : R2).SCan := by decide +kernel

theorem start_sim (hb : c.binv.SCan) (hbt : V2 (beta c.b82 c.binv) bt) (hx : P.1 < p) (hy : P.2 < p) (h1 : Q.1.SCan)
    (h2 : Q.2.SCan) : Sim StC (start bt Q P) (Snark.start c Q P) := by
  obtain ⟨e, k⟩ := dbl_eq' hb hbt hx hy (T3C.mk (T := ⟨Q.1, Q.2, ⟨montR, 0⟩⟩) h1 h2 one_can)
  unfold start Snark.start
  dsimp only
  rw [e]
  generalize dbl bt P ⟨Q.1, Q.2, ⟨montR, 0⟩⟩ = d at k ⊢
  rw [Res.bind_ok]
  obtain ⟨e', l⟩ := add_eq' hx hy k.t h1 h2
  rw [e']
  generalize add P Q ⟨d.x, d.y, d.z⟩ = e at l ⊢
  rw [Res.bind_ok, strSt_eq, mul024_024_eq k.l l.l]
  exact Sim.pure ⟨mul_can _ _, l.t⟩

theorem frobTwist1_eq (Q : R2 × R2) : Snark.frobTwist1 Q = frobTwist1 Q := by
  obtain ⟨-, h1, h2, -⟩ := g1_eq
  rw [Snark.frobTwist1, frobTwist1, h1, h2]
theorem frobTwist1_can (h1 : Q.1.SCan) (h2 : Q.2.SCan) : (frobTwist1 Q).1.SCan ∧ (frobTwist1 Q).2.SCan := by
  rw [← frobTwist1_eq]
  obtain ⟨a, b⟩ := Pr.frob1_val (Q := Q) ⟨h1, rfl⟩ ⟨h2, rfl⟩
  exact ⟨a.1, b.1⟩

theorem finish_aux (hx : P.1 < p) (hy : P.2 < p) {Q1 Q2 : R2 × R2} (a1 : Q1.1.SCan) (a2 : Q1.2.SCan) (b1 : Q2.1.SCan)
    (b2 : Q2.2.SCan) {st : R12 × T3} (hst : StC st) :
    Sim R12.SCan (let d := add P Q1 st.2; let e := add P Q2 ⟨d.x, d.y, d.z⟩; mulK true st.1 (mul (line d.l) (line e.l)))
      (do let d ← pointAddLineEval st.2.x st.2.y st.2.z Q1.1 Q1.2 P.1 P.2
          let e ← pointAddLineEval d.x d.y d.z Q2.1 Q2.2 P.1 P.2
          S12.mulK true st.1 (S12.mul024_024 d.l e.l)) := by
  obtain ⟨e, k⟩ := add_eq hx hy hst.t a1 a2
  rw [e]
  generalize add P Q1 st.2 = d at k ⊢
  rw [Res.bind_ok]
  obtain ⟨e', l⟩ := add_eq' hx hy k.t b1 b2
  dsimp only
  rw [e']
  generalize add P Q2 ⟨d.x, d.y, d.z⟩ = e at l ⊢
  rw [Res.bind_ok, mul024_024_eq k.l l.l, mulK_eq hst.f (mul_can _ _)]
  exact fun y h => ⟨h, mulK_can h⟩

theorem finish_sim (hx : P.1 < p) (hy : P.2 < p) (h1 : Q.1.SCan) (h2 : Q.2.SCan) {st : R12 × T3}
    (hst : StC st) : Sim R12.SCan (finish Q P st) (Snark.finish true Q P st) := by
  obtain ⟨a1, a2⟩ := frobTwist1_can h1 h2
  obtain ⟨b1, b2⟩ := frobTwist1_can a1 a2
  have b3 := neg_can b2
  unfold finish Snark.finish Snark.frobTwist2
  rw [frobTwist1_eq, frobTwist1_eq]
  dsimp only
  generalize frobTwist1 Q = Q1 at *
  generalize (frobTwist1 Q1).1 = X at *
  generalize (frobTwist1 Q1).2 = Y at *
  generalize S2.neg Y = Y' at *
  exact finish_aux hx hy (Q2 := (X, Y')) a1 a2 b1 b3 hst

theorem miller_sim (hb : c.binv.SCan) (hbt : V2 (beta c.b82 c.binv) bt) (hx : P.1 < p) (hy : P.2 < p) (h1 : Q.1.SCan)
    (h2 : Q.2.SCan) : Sim R12.SCan (miller bt Q P) (Snark.miller true c Q P) :=
  Sim.bind (start_sim hb hbt hx hy h1 h2) fun _ ha => Sim.bind (loop_sim hb hbt hx hy h1 h2 _ ha) fun _ hb =>
    finish_sim hx hy h1 h2 hb

theorem optAte_sim (hb : c.binv.SCan) (hbt : V2 (beta c.b82 c.binv) bt) (hx : P.1 < p) (hy : P.2 < p) (h1 : Q.1.SCan)
    (h2 : Q.2.SCan) : Sim R12.SCan (optAte bt Q P) (Snark.optAte true c Q P) := by
  unfold optAte Snark.optAte S12.finalExp
  refine Sim.bind (miller_sim hb hbt hx hy h1 h2) fun f hf => ?_
  rw [str12_eq, ← mapToCyclo_eq]
  refine Sim.bind (P := fun _ => True) (fun y h => ⟨h, trivial⟩) fun g _ => ?_
  rw [str12_eq]
  split
  · intro y h; cases h
  · rename_i hg
    rw [not_not] at hg
    obtain ⟨e, h⟩ := agree_hardPart hg
    rw [e]; exact fun y hy => ⟨hy, h y hy⟩

end Fast
end Verif.Snark
