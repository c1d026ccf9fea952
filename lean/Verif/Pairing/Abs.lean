import Verif.Pairing.Loop
import Verif.Pairing.Count
import Verif.Pairing.Bilinear

/-!
The cocycle argument of `Gamma`, `Loop`, `Ate`, `Recip`, `Bilinear` over an abstract tower k ⊂ K ⊂ L with w ∈ L, w⁶ = xi.
It is used for the SNARK build, where z > 0 (so s Q + φQ - φ²Q, no negation) and the curve has two values of b.
-/

namespace Verif
open Hom Ec WeierstrassCurve.Affine

namespace Abs
open Cocycle
open Pairing (Tri Cob Opp)

/-- the tower, the curve y² = x³ + b over k, its twist y² = x³ + b/xi over K, the final exponentiation -/
structure Setup (k K L : Type) [Field k] [DecidableEq k] [Field K] [DecidableEq K] [Field L] where
  j : k →+* K
  ι : K →+* L
  w : L
  xi : K
  b : k
  tw : K
  g : K
  q : ℕ
  r : ℕ
  s : ℕ
  FE : L →*₀ L
  tw_eq : tw = j b / xi
  xi_ne : xi ≠ 0
  w6 : w ^ 6 = ι xi
  good0 : Good b
  good : Good tw
  prime : Fact q.Prime
  charK : CharP K q
  charL : CharP L q
  g6 : g ^ 6 = xi ^ (q - 1)
  wq : w ^ q = ι g * w
  fixk : ∀ x : k, x ^ q = x
  x_ne : ∀ x y : k, y ^ 2 = x ^ 3 + b → x ≠ 0
  y_ne : ∀ x y : k, y ^ 2 = x ^ 3 + b → y ≠ 0
  y_ne2 : ∀ x y : K, y ^ 2 = x ^ 3 + tw → y ≠ 0
  FE_r : ∀ x, x ≠ 0 → FE x ^ r = 1
  even : ∀ a0 a2 a4 : K, ι a0 + ι a2 * w ^ 2 + ι a4 * w ^ 4 ≠ 0 → FE (ι a0 + ι a2 * w ^ 2 + ι a4 * w ^ 4) = 1
  indep : ∀ a0 a3 a4 a5 : K, ι a0 + ι a3 * w ^ 3 + ι a4 * w ^ 4 + ι a5 * w ^ 5 = 0 → a0 = 0 ∧ a3 = 0 ∧ a4 = 0 ∧ a5 = 0
  rel : ∃ n : ℕ, q ^ 3 + (s + q) = n * r + q ^ 2

variable {k K L : Type} [Field k] [DecidableEq k] [Field K] [DecidableEq K] [Field L] (S : Setup k K L)

namespace Setup

/-- the twist group -/
abbrev E' := (curve S.tw).Point

/-- affine points of y² = x³ + b -/
structure OnE (P : k × k) : Prop where
  eq : P.2 ^ 2 = P.1 ^ 3 + S.b

variable {S}

theorem OnE.x_ne {P : k × k} (h : S.OnE P) : P.1 ≠ 0 := S.x_ne _ _ h.eq
theorem OnE.y_ne {P : k × k} (h : S.OnE P) : P.2 ≠ 0 := S.y_ne _ _ h.eq
theorem OnE.neg {P : k × k} (h : S.OnE P) : S.OnE (P.1, -P.2) := ⟨by
  show (-P.2) ^ 2 = _
  rw [neg_sq]; exact h.eq⟩

variable (S)

/-- the image of P on the twist over L: (x/w², y/w³) -/
def PX (P : k × k) : L := S.ι (S.j P.1 / S.xi) * S.w ^ 4
def PY (P : k × k) : L := S.ι (S.j P.2 / S.xi) * S.w ^ 3

theorem pt {P : k × k} (h : S.OnE P) : S.PY P ^ 2 = S.PX P ^ 3 + S.ι S.tw := by
  rw [S.tw_eq]
  refine Pairing.pt_aux S.ι S.xi_ne S.w6 ?_
  rw [← map_pow, ← map_pow, h.eq, map_add]

/-- value of a line at P -/
def val (P : k × k) (l : Lin K) : L := evl S.ι (S.PX P) (S.PY P) l

theorem val_eq (P : k × k) (l : Lin K) : S.val P l =
    S.ι l.1 + S.ι (l.2.1 * (S.j P.2 / S.xi)) * S.w ^ 3 + S.ι (l.2.2 * (S.j P.1 / S.xi)) * S.w ^ 4 := by
  unfold val evl PX PY
  simp only [map_mul]
  ring

theorem j_ne {x : k} (h : x ≠ 0) : S.j x ≠ 0 := (map_ne_zero S.j).2 h

theorem val_ne {P : k × k} (h : S.OnE P) {l : Lin K} (hl : l.1 ≠ 0 ∨ l.2.1 ≠ 0 ∨ l.2.2 ≠ 0) : S.val P l ≠ 0 := by
  rw [val_eq]
  intro h0
  obtain ⟨h1, h2, h3, -⟩ := S.indep l.1 (l.2.1 * (S.j P.2 / S.xi)) (l.2.2 * (S.j P.1 / S.xi)) 0 (by rw [map_zero, zero_mul, add_zero]; exact h0)
  have hy := div_ne_zero (S.j_ne h.y_ne) S.xi_ne
  have hx := div_ne_zero (S.j_ne h.x_ne) S.xi_ne
  rcases hl with h4 | h4 | h4
  · exact h4 h1
  · exact mul_ne_zero h4 hy h2
  · exact mul_ne_zero h4 hx h3

variable {S}

theorem lin_ne (A B : S.E') : (lin A B).1 ≠ 0 ∨ (lin A B).2.1 ≠ 0 ∨ (lin A B).2.2 ≠ 0 := by
  rcases lin_cases A B with h | ⟨-, h | h⟩
  · exact .inr (.inl (by rw [h]; exact one_ne_zero))
  · exact .inr (.inr (by rw [h]; exact one_ne_zero))
  · exact .inl (by rw [h]; exact one_ne_zero)
theorem vert_ne (A : S.E') : (vert A).1 ≠ 0 ∨ (vert A).2.1 ≠ 0 ∨ (vert A).2.2 ≠ 0 := lin_ne 0 A

theorem FE_ne {x : L} (h : x ≠ 0) : S.FE x ≠ 0 := (map_ne_zero S.FE).2 h

theorem FE_const {d : K} (h : d ≠ 0) : S.FE (S.ι d) = 1 := by
  have := S.even d 0 0
  rw [map_zero, zero_mul, zero_mul, add_zero, add_zero] at this
  exact this ((map_ne_zero S.ι).2 h)

theorem FE_vert {P : k × k} (h : S.OnE P) {l : Lin K} (hl : l.1 ≠ 0 ∨ l.2.1 ≠ 0 ∨ l.2.2 ≠ 0) (h0 : l.2.1 = 0) :
    S.FE (S.val P l) = 1 := by
  have hv := S.val_ne h hl
  have e : S.val P l = S.ι l.1 + S.ι 0 * S.w ^ 2 + S.ι (l.2.2 * (S.j P.1 / S.xi)) * S.w ^ 4 := by
    rw [val_eq, h0]; simp only [zero_mul, map_zero]
  rw [e] at hv ⊢
  exact S.even _ _ _ hv

theorem vert_y (A : S.E') : (vert A).2.1 = 0 := by
  cases A <;> rfl

/-- γ(A, B) -/
def gamma {P : k × k} (h : S.OnE P) (A B : S.E') : Lˣ :=
  Units.mk0 (S.FE (S.val P (lin A B))) (FE_ne (S.val_ne h (lin_ne A B)))

theorem gamma_coe {P : k × k} (h : S.OnE P) (A B : S.E') : (gamma h A B : L) = S.FE (S.val P (lin A B)) := rfl

theorem lin_neg (A : S.E') : (lin A (-A)).2.1 = 0 := by
  cases A with
  | zero => rfl
  | some x y hn =>
    obtain ⟨h', e⟩ := neg_some hn
    rw [e]
    have e2 : lin (b := S.tw) (.some x y hn) (.some x (-y) h') = (-x, 0, 1) :=
      if_pos ⟨rfl, by simp [WeierstrassCurve.Affine.negY, curve]⟩
    rw [e2]

/-- The cocycle of a point P. -/
def coc {P : k × k} (h : S.OnE P) : Cocycle.Coc S.E' Lˣ where
  γ := gamma h
  zero_left B := Units.ext (FE_vert h (vert_ne B) (vert_y B))
  symm A B := Units.ext (by
    rw [gamma_coe, gamma_coe]
    obtain ⟨d, hc, e⟩ := symm_val S.ι (S.PX P) (S.PY P) (S.pt h) A B
    have e' : S.val P (lin A B) = S.ι d * S.val P (lin B A) := e
    rw [e', map_mul, FE_const hc, one_mul])
  neg A := Units.ext (FE_vert h (lin_ne A (-A)) (lin_neg A))
  assoc A B D := Units.ext (by
    rw [Units.val_mul, Units.val_mul, gamma_coe, gamma_coe, gamma_coe, gamma_coe]
    obtain ⟨d, hc, e⟩ := cocycle_val S.ι (S.PX P) (S.PY P) (S.pt h) A B D
    have e' : S.val P (lin A B) * S.val P (lin (A + B) D) * S.val P (vert (B + D)) =
      S.ι d * (S.val P (lin B D) * S.val P (lin A (B + D)) * S.val P (vert (A + B))) := e
    have := congrArg S.FE e'
    rw [map_mul, map_mul, map_mul, map_mul, map_mul, FE_const hc, FE_vert h (vert_ne _) (vert_y _),
      FE_vert h (vert_ne _) (vert_y _), one_mul, mul_one, mul_one] at this
    exact this)

/-! ### The twisted Frobenius -/

theorem q_pos : 0 < S.q := S.prime.out.pos

theorem j_pow (x : k) : (S.j x) ^ S.q = S.j x := by rw [← map_pow, S.fixk]

theorem g_ne : S.g ≠ 0 := by
  intro h
  have := S.g6
  rw [h, zero_pow (by norm_num)] at this
  exact pow_ne_zero _ S.xi_ne this.symm

variable (S)

/-- the q-power endomorphism of the twist -/
def frobS : Semi S.tw where
  good := S.good
  σ := letI := S.charK; letI := S.prime; frobenius K S.q
  g := S.g
  g_ne := g_ne
  fix := by
    have := S.charK; have := S.prime
    show S.g ^ 6 * S.tw ^ S.q = S.tw
    rw [S.tw_eq]
    exact Pairing.fix_aux q_pos S.xi_ne S.g6 (j_pow S.b)

/-- φ -/
def phi : S.E' →+ S.E' := S.frobS.hom

variable {S}

theorem phi_some {x y : K} (h : (curve S.tw).Nonsingular x y) :
    ∃ h', S.phi (.some x y h) = .some (S.g ^ 2 * x ^ S.q) (S.g ^ 3 * y ^ S.q) h' := ⟨S.frobS.nons h, rfl⟩

theorem PX_pow (P : k × k) : S.ι S.g ^ 2 * S.PX P ^ S.q = S.PX P :=
  Pairing.powp_aux S.ι (m := 4) q_pos S.xi_ne S.g6 S.wq (j_pow P.1) (by norm_num)
theorem PY_pow (P : k × k) : S.ι S.g ^ 3 * S.PY P ^ S.q = S.PY P :=
  Pairing.powp_aux S.ι (m := 3) q_pos S.xi_ne S.g6 S.wq (j_pow P.2) (by norm_num)

theorem val_pow (P : k × k) (l : Lin K) : S.ι S.g ^ 3 * S.val P l ^ S.q =
    S.val P (S.g ^ 3 * l.1 ^ S.q, l.2.1 ^ S.q, S.g * l.2.2 ^ S.q) := by
  have := S.charL; have := S.prime
  unfold val evl
  rw [add_pow_char, add_pow_char, mul_pow, mul_pow]
  simp only [map_mul, map_pow]
  linear_combination S.ι l.2.1 ^ S.q * PY_pow (S := S) P + S.ι S.g * S.ι l.2.2 ^ S.q * PX_pow (S := S) P

theorem FE_pow (x : L) (n : ℕ) : S.FE (x ^ n) = S.FE x ^ n := map_pow S.FE x n

/-- γ(φA, φB) = γ(A, B)^q -/
theorem gamma_phi {P : k × k} (h : S.OnE P) (A B : S.E') : gamma h (S.phi A) (S.phi B) = gamma h A B ^ S.q := by
  apply Units.ext
  rw [Units.val_pow_eq_pow_val, gamma_coe, gamma_coe, ← FE_pow]
  obtain ⟨d, hd, e⟩ := evl_prop3 S.ι (S.PX P) (S.PY P) (S.frobS.lin_hom A B)
  have e1 : S.val P (S.g ^ 3 * (lin A B).1 ^ S.q, (lin A B).2.1 ^ S.q, S.g * (lin A B).2.2 ^ S.q) =
    S.ι d * S.val P (lin (S.phi A) (S.phi B)) := e
  have e2 := (val_pow P (lin A B)).trans e1
  have e3 := congrArg S.FE e2
  rw [map_mul, map_mul, FE_const hd, one_mul, FE_pow (S.ι S.g), FE_const g_ne, one_pow, one_mul] at e3
  exact e3.symm

/-- Π(u, A) = (u^q, φA) -/
def Phi {P : k × k} (h : S.OnE P) : Ext (coc h) →+ Ext (coc h) where
  toFun x := ⟨x.u ^ S.q, S.phi x.A⟩
  map_zero' := Ext.ext (one_pow S.q) (map_zero S.phi)
  map_add' x y := Ext.ext (by
    show (x.u * y.u * gamma h x.A y.A) ^ S.q = x.u ^ S.q * y.u ^ S.q * gamma h (S.phi x.A) (S.phi y.A)
    rw [gamma_phi, mul_pow, mul_pow]) (map_add S.phi _ _)

/-- the pair (1, A) -/
def one1 {P : k × k} (h : S.OnE P) (A : S.E') : Ext (coc h) := ⟨1, A⟩

variable {P : k × k} (h : S.OnE P)

theorem Phi_one1 (A : S.E') : Phi h (one1 h A) = one1 h (S.phi A) := Ext.ext (one_pow S.q) rfl
theorem neg_one1 (A : S.E') : -one1 h A = one1 h (-A) := Ext.ext inv_one rfl

theorem add_one1_u (x : Ext (coc h)) (A : S.E') : (x + one1 h A).u = x.u * gamma h x.A A := by
  rw [Ext.add_u]
  show x.u * 1 * gamma h x.A A = _
  rw [mul_one]
theorem add_one1_A (x : Ext (coc h)) (A : S.E') : (x + one1 h A).A = x.A + A := rfl
theorem dbl_u (x : Ext (coc h)) : (x + x).u = x.u * x.u * gamma h x.A x.A := rfl
theorem dbl_A (x : Ext (coc h)) : (x + x).A = x.A + x.A := rfl

theorem ne_neg' {G : Type} [AddCommGroup G] {n : ℕ} (B : G) (h : (n + 1) • B ≠ 0) : n • B ≠ -B := by
  intro h0
  rw [succ_nsmul, h0] at h
  exact h (neg_add_cancel _)
theorem ne_of_neg {B B' : S.E'} (en : -B = B') {n : ℕ} (h : (n + 1) • B ≠ 0) : n • B ≠ B' := by
  rw [← en]; exact ne_neg' B h
theorem pred_nsmul' {G : Type} [AddCommGroup G] {n : ℕ} (B : G) (hn : 0 < n) : (2 * n) • B + -B = (2 * n - 1) • B := by
  have e1 : 2 * n = (2 * n - 1) + 1 := by omega
  conv_lhs => rw [e1, succ_nsmul]
  exact add_neg_cancel_right _ _
theorem ne_self' {G : Type} [AddCommGroup G] {n : ℕ} (B : G) (hn : 0 < n) (h : (2 * n - 1) • B ≠ 0) : (2 * n) • B ≠ B := by
  intro h0
  rw [← pred_nsmul' B hn, h0] at h
  exact h (add_neg_cancel _)

theorem one1_pred {B B' : S.E'} (en : -B = B') {n : ℕ} (hn : 0 < n) :
    (2 * n) • one1 h B + one1 h B' = (2 * n - 1) • one1 h B := by
  subst en
  rw [← neg_one1]
  exact pred_nsmul' (one1 h B) hn

theorem one1_succ (B : S.E') (n : ℕ) : n • one1 h B + one1 h B = (n + 1) • one1 h B := (succ_nsmul (one1 h B) n).symm

theorem one1_nsmul_A (B : S.E') (n : ℕ) : (n • one1 h B).A = n • B := Ext.nsmul_A _ _

/-! ### The value as an element of the extension; additivity in the twist group -/

/-- (s + Φ - Φ²) x -/
def lam (x : Ext (coc h)) : Ext (coc h) := S.s • x + Phi h x - Phi h (Phi h x)

/-- s + Φ - Φ² + Φ³ -/
def Lam : Ext (coc h) →+ Ext (coc h) where
  toFun x := lam h x + Phi h (Phi h (Phi h x))
  map_zero' := by unfold lam; simp
  map_add' x y := by unfold lam; simp only [map_add, nsmul_add]; abel

theorem Lam_apply (x : Ext (coc h)) : Lam h x = lam h x + Phi h (Phi h (Phi h x)) := rfl

theorem fib_u (u : Lˣ) : (Ext.fib u : Ext (coc h)).u = u := rfl
theorem fib_A (u : Lˣ) : (Ext.fib u : Ext (coc h)).A = 0 := rfl
theorem one1_u (B : S.E') : (one1 h B).u = 1 := rfl
theorem one1_A (B : S.E') : (one1 h B).A = B := rfl

/-- the embedding of the values -/
def fibHom : Additive Lˣ →+ Ext (coc h) where
  toFun u := Ext.fib u.toMul
  map_zero' := rfl
  map_add' _ _ := (Ext.fib_add _ _).symm

theorem Phi_fib (u : Lˣ) : Phi h (Ext.fib u) = Ext.fib (u ^ S.q) := Ext.ext rfl (map_zero S.phi)
theorem fib_nsmul (n : ℕ) (u : Lˣ) : (n • Ext.fib u : Ext (coc h)) = Ext.fib (u ^ n) :=
  (map_nsmul (fibHom h) n (Additive.ofMul u)).symm
theorem fib_neg (u : Lˣ) : (-Ext.fib u : Ext (coc h)) = Ext.fib u⁻¹ := Ext.ext rfl neg_zero

theorem Lam_fib {u : Lˣ} (hu : u ^ S.r = 1) : Lam h (Ext.fib u) = 0 := by
  have e : u ^ (S.q ^ 3) * (u ^ S.s * u ^ S.q) = u ^ (S.q ^ 2) := by
    obtain ⟨n, hn⟩ := S.rel
    rw [← pow_add, ← pow_add, hn, pow_add, mul_comm n, pow_mul, hu, one_pow, one_mul]
  rw [Lam_apply]
  unfold lam
  rw [Phi_fib, Phi_fib, Phi_fib, fib_nsmul, sub_eq_add_neg, fib_neg, Ext.fib_add, Ext.fib_add, Ext.fib_add,
    ← pow_mul, ← pow_mul, ← pow_two, ← pow_succ]
  have : u ^ S.s * u ^ S.q * (u ^ S.q ^ 2)⁻¹ * u ^ (S.q ^ (2 + 1)) = 1 := by
    rw [← e]
    have e3 : u ^ (S.q ^ (2 + 1)) = u ^ (S.q ^ 3) := rfl
    rw [e3, mul_right_comm, mul_comm (u ^ S.s * u ^ S.q), mul_inv_cancel]
  rw [this]; rfl

/-- the points on which φ is multiplication by q, r-torsion -/
structure _root_.Verif.Abs.Tor (S : Setup k K L) (B : S.E') : Prop where
  r : S.r • B = 0
  phi : S.phi B = S.q • B

theorem _root_.Verif.Abs.Tor.add {A B : S.E'} (hA : Tor S A) (hB : Tor S B) : Tor S (A + B) :=
  ⟨by rw [nsmul_add, hA.r, hB.r, add_zero], by rw [map_add, hA.phi, hB.phi, nsmul_add]⟩
theorem _root_.Verif.Abs.Tor.zero : Tor S 0 := ⟨nsmul_zero _, by rw [map_zero, nsmul_zero]⟩
theorem _root_.Verif.Abs.Tor.neg {A : S.E'} (hA : Tor S A) : Tor S (-A) :=
  ⟨by rw [smul_neg, hA.r, neg_zero], by rw [map_neg, hA.phi, smul_neg]⟩
theorem _root_.Verif.Abs.Tor.nsmul {A : S.E'} (hA : Tor S A) (n : ℕ) : Tor S (n • A) := by
  induction n with
  | zero => rw [zero_nsmul]; exact Tor.zero
  | succ n ih => rw [succ_nsmul]; exact ih.add hA

theorem lam_A {B : S.E'} (hB : Tor S B) (x : Ext (coc h)) (hx : x.A = B) :
    (lam h x).A = -S.phi (S.phi (S.phi B)) := by
  have h1 : (lam h x).A = S.s • B + S.phi B - S.phi (S.phi B) := by
    have : (lam h x).A = (S.s • x).A + S.phi x.A - S.phi (S.phi x.A) := by
      unfold lam; rw [sub_eq_add_neg, sub_eq_add_neg]; rfl
    rw [this, Ext.nsmul_A, hx]
  rw [h1]
  have e1 : S.phi B = S.q • B := hB.phi
  rw [e1, map_nsmul, e1, map_nsmul, map_nsmul, e1, smul_smul, smul_smul]
  obtain ⟨n, hn⟩ := S.rel
  have e2 : (S.q ^ 3 + (S.s + S.q)) • B = (S.q ^ 2) • B := by
    rw [hn, add_nsmul, mul_nsmul', hB.r, nsmul_zero, zero_add]
  rw [add_nsmul, add_nsmul] at e2
  rw [← pow_two, show S.q * S.q ^ 2 = S.q ^ 3 by ring, ← e2]
  abel

/-- on the torsion Λ takes values in the fibre, and the value is the one of λ -/
theorem Lam_one1 {B : S.E'} (hB : Tor S B) : Lam h (one1 h B) = Ext.fib (lam h (one1 h B)).u := by
  have h1 := lam_A h hB (one1 h B) rfl
  rw [Lam_apply, Phi_one1, Phi_one1, Phi_one1]
  refine Ext.ext ?_ ?_
  · rw [Ext.add_u, h1, one1_u, one1_A, (coc h).symm, (coc h).neg, mul_one, mul_one, fib_u]
  · rw [Ext.add_A, h1, one1_A, fib_A]
    exact neg_add_cancel _

theorem Lam_mk {B : S.E'} (hB : Tor S B) {u : Lˣ} (hu : u ^ S.r = 1) :
    Lam h ⟨u, B⟩ = Ext.fib (lam h (one1 h B)).u := by
  have e : (⟨u, B⟩ : Ext (coc h)) = Ext.fib u + one1 h B := by
    refine Ext.ext ?_ (zero_add B).symm
    rw [Ext.fib_add_u]; exact (mul_one u).symm
  rw [e, map_add, Lam_fib h hu, zero_add, Lam_one1 h hB]

theorem gamma_pow_r (A B : S.E') : gamma h A B ^ S.r = 1 :=
  Units.ext (by
    rw [Units.val_pow_eq_pow_val, gamma_coe]; exact S.FE_r _ (S.val_ne h (lin_ne A B)))

/-- the value for a point of the twist group -/
def ate (B : S.E') : Lˣ := (lam h (one1 h B)).u

theorem ate_add {A B : S.E'} (hA : Tor S A) (hB : Tor S B) : ate h (A + B) = ate h A * ate h B := by
  have e : one1 h A + one1 h B = ⟨gamma h A B, A + B⟩ := Ext.ext (by
    show 1 * 1 * gamma h A B = _
    rw [one_mul, one_mul]) rfl
  have h1 := congrArg (Lam h) e
  rw [map_add, Lam_one1 h hA, Lam_one1 h hB, Lam_mk h (hA.add hB) (gamma_pow_r h A B), Ext.fib_add] at h1
  exact (congrArg Ext.u h1).symm

theorem ate_neg (B : S.E') : ate h (-B) = (ate h B)⁻¹ := by
  unfold ate
  rw [← neg_one1, ← Ext.neg_u]
  congr 1
  unfold lam
  rw [map_neg, map_neg, smul_neg]
  abel

theorem ate_zero : ate h 0 = 1 := by
  have : one1 h 0 = 0 := rfl
  unfold ate lam
  rw [this]
  simp only [map_zero, smul_zero, sub_zero, add_zero]
  rfl

theorem ate_eq (B : S.E') : (S.s • one1 h B + one1 h (S.phi B) - one1 h (S.phi (S.phi B))).u = ate h B := by
  unfold ate lam
  rw [Phi_one1, Phi_one1]

theorem nsmul_coprime {G : Type} [AddCommGroup G] {B : G} {n m : ℕ} (hB : m • B = 0) (h : n • B = 0)
    (hg : Nat.Coprime n m) : B = 0 :=
  Count.smul_coprime (n := n) (N := m) (by rw [natCast_zsmul]; exact hB) (by rw [natCast_zsmul]; exact h)
    (by rw [Int.gcd_natCast_natCast]; exact hg)

theorem _root_.Verif.Abs.Tor.ne {B : S.E'} (hB : Tor S B) (h0 : B ≠ 0) {n : ℕ} (hn : Nat.Coprime n S.r) : n • B ≠ 0 :=
  fun h => h0 (nsmul_coprime hB.r h hn)

/-- the last two additions of the loop are not exceptional -/
theorem fin_conds {B : S.E'} (hB : Tor S B) (h0 : B ≠ 0) (hs : S.s ≤ S.q) (c1 : Nat.Coprime S.s S.r)
    (c2 : Nat.Coprime (S.q - S.s) S.r) (c3 : Nat.Coprime (S.s + S.q) S.r) (c4 : Nat.Coprime (S.s + S.q + S.q * S.q) S.r) :
    (S.s • one1 h B).A ≠ 0 ∧ (S.s • one1 h B).A ≠ S.phi B ∧ (S.s • one1 h B).A + S.phi B ≠ 0 ∧
      (S.s • one1 h B).A + S.phi B ≠ -S.phi (S.phi B) := by
  rw [one1_nsmul_A, hB.phi, map_nsmul, hB.phi]
  refine ⟨hB.ne h0 c1, fun e => hB.ne h0 c2 ?_, fun e => hB.ne h0 c3 ?_, fun e => hB.ne h0 c4 ?_⟩
  · have : (S.q - S.s + S.s) • B = S.q • B := by rw [Nat.sub_add_cancel hs]
    rw [add_nsmul, e] at this
    exact add_eq_right.1 this
  · rw [add_nsmul]; exact e
  · rw [add_nsmul, add_nsmul, mul_nsmul', e]; exact neg_add_cancel _

/-! ### Additivity in the first group -/

/-- the value of y - l x - n, moved to the twist, at a point of the twist -/
def mv (l n : k) : S.E' → L
  | .zero => 1
  | .some x y _ => S.ι y - S.ι (S.j l) / S.ι S.xi * S.w ^ 5 * S.ι x - S.ι (S.j n) / S.ι S.xi * S.w ^ 3

theorem mv_some (l n : k) {x y : K} (hn : (curve S.tw).Nonsingular x y) : mv l n (.some x y hn : S.E') =
    S.ι y - S.ι (S.j l) / S.ι S.xi * S.w ^ 5 * S.ι x - S.ι (S.j n) / S.ι S.xi * S.w ^ 3 := rfl

theorem y_ne2' {x y : K} (hn : (curve S.tw).Nonsingular x y) : y ≠ 0 :=
  S.y_ne2 x y ((curve_nonsingular S.good x y).1 hn)

theorem mv_ne (l n : k) (A : S.E') : mv l n A ≠ 0 := by
  cases A with
  | zero => exact one_ne_zero
  | some x y hn =>
    intro h0
    refine y_ne2' hn (S.indep y (-(S.j n / S.xi)) 0 (-(S.j l / S.xi * x)) ?_).1
    rw [mv_some] at h0
    rw [← h0]
    simp only [map_neg, map_mul, map_div₀, map_zero]
    ring

/-- M(A) -/
def M (l n : k) (A : S.E') : Lˣ := Units.mk0 (S.FE (mv l n A)) (FE_ne (mv_ne l n A))

theorem M_coe (l n : k) (A : S.E') : (M l n A : L) = S.FE (mv l n A) := rfl
theorem M_zero (l n : k) : M l n (0 : S.E') = 1 := Units.ext (map_one S.FE)
theorem M_pow_r (l n : k) (A : S.E') : M l n A ^ S.r = 1 :=
  Units.ext (by rw [Units.val_pow_eq_pow_val, M_coe]; exact S.FE_r _ (mv_ne l n A))

theorem M_neg (l n : k) (A : S.E') : M l n A * M l n (-A) = 1 := by
  apply Units.ext
  rw [Units.val_mul, M_coe, M_coe, ← map_mul]
  cases A with
  | zero => exact (congrArg S.FE (mul_one (1 : L))).trans (map_one S.FE)
  | some x y hn =>
    obtain ⟨h', e⟩ := neg_some hn
    have hne := mul_ne_zero (mv_ne l n (.some x y hn : S.E')) (mv_ne l n (-.some x y hn : S.E'))
    rw [e, mv_some, mv_some] at hne ⊢
    have k1 : (S.ι y - S.ι (S.j l) / S.ι S.xi * S.w ^ 5 * S.ι x - S.ι (S.j n) / S.ι S.xi * S.w ^ 3) *
        (S.ι (-y) - S.ι (S.j l) / S.ι S.xi * S.w ^ 5 * S.ι x - S.ι (S.j n) / S.ι S.xi * S.w ^ 3) =
        S.ι (-y ^ 2 + (S.j n / S.xi) ^ 2 * S.xi) + S.ι (2 * (S.j l / S.xi * x) * (S.j n / S.xi) * S.xi) * S.w ^ 2 +
          S.ι ((S.j l / S.xi * x) ^ 2 * S.xi) * S.w ^ 4 := by
      have hw := S.w6
      simp only [map_neg, map_mul, map_add, map_pow, map_div₀, map_ofNat]
      have e10 : S.w ^ 10 = S.ι S.xi * S.w ^ 4 := by rw [← hw]; ring
      have e8 : S.w ^ 8 = S.ι S.xi * S.w ^ 2 := by rw [← hw]; ring
      generalize S.ι (S.j l) / S.ι S.xi = a
      generalize S.ι (S.j n) / S.ι S.xi = d
      linear_combination (a * S.ι x) ^ 2 * e10 + 2 * a * S.ι x * d * e8 + d ^ 2 * hw
    rw [k1] at hne ⊢
    exact S.even _ _ _ hne

theorem mv_phi (l n : k) (A : S.E') : ∃ d : K, d ≠ 0 ∧ S.ι d * mv l n A ^ S.q = mv l n (S.phi A) := by
  have := S.charL; have := S.prime
  cases A with
  | zero =>
    refine ⟨1, one_ne_zero, ?_⟩
    have : S.phi (.zero : S.E') = .zero := map_zero S.phi
    rw [this, map_one, one_mul]; exact one_pow S.q
  | some x y hn =>
    refine ⟨S.g ^ 3, pow_ne_zero 3 g_ne, ?_⟩
    obtain ⟨h', e⟩ := phi_some hn
    rw [e, mv_some, mv_some]
    have p1 := Pairing.powp_aux S.ι (m := 5) q_pos S.xi_ne S.g6 S.wq (j_pow l) (by norm_num)
    have p2 := Pairing.powp_aux S.ι (m := 3) q_pos S.xi_ne S.g6 S.wq (j_pow n) (by norm_num)
    rw [← map_div₀, ← map_div₀]
    generalize S.ι (S.j l / S.xi) * S.w ^ 5 = a at p1 ⊢
    generalize S.ι (S.j n / S.xi) * S.w ^ 3 = d at p2 ⊢
    rw [sub_pow_char, sub_pow_char, mul_pow]
    simp only [map_mul, map_pow]
    linear_combination -S.ι S.g ^ 2 * S.ι x ^ S.q * p1 - p2

theorem M_phi (l n : k) (A : S.E') : M l n (S.phi A) = M l n A ^ S.q := by
  apply Units.ext
  obtain ⟨d, hd, e⟩ := mv_phi l n A
  rw [Units.val_pow_eq_pow_val, M_coe, M_coe, ← e, map_mul, FE_const hd, one_mul, map_pow]

theorem gamma_conj (A B : S.E') : gamma h.neg A B = (gamma h A B)⁻¹ := by
  refine eq_inv_of_mul_eq_one_left (Units.ext ?_)
  have hne := mul_ne_zero (S.val_ne h.neg (lin_ne A B)) (S.val_ne h (lin_ne A B))
  rw [Units.val_mul, gamma_coe, gamma_coe, ← map_mul, Units.val_one]
  rw [val_eq, val_eq] at hne ⊢
  generalize lin A B = m at hne ⊢
  have k1 : (S.ι m.1 + S.ι (m.2.1 * (S.j (P.1, -P.2).2 / S.xi)) * S.w ^ 3 +
        S.ι (m.2.2 * (S.j (P.1, -P.2).1 / S.xi)) * S.w ^ 4) *
      (S.ι m.1 + S.ι (m.2.1 * (S.j P.2 / S.xi)) * S.w ^ 3 + S.ι (m.2.2 * (S.j P.1 / S.xi)) * S.w ^ 4) =
      S.ι (m.1 ^ 2 - (m.2.1 * (S.j P.2 / S.xi)) ^ 2 * S.xi) + S.ι ((m.2.2 * (S.j P.1 / S.xi)) ^ 2 * S.xi) * S.w ^ 2 +
        S.ι (2 * m.1 * (m.2.2 * (S.j P.1 / S.xi))) * S.w ^ 4 := by
    have hw := S.w6
    have e8 : S.w ^ 8 = S.ι S.xi * S.w ^ 2 := by rw [← hw]; ring
    simp only [map_neg, map_mul, map_sub, map_pow, map_div₀, map_ofNat, neg_div]
    generalize S.ι (S.j P.1) / S.ι S.xi = a
    generalize S.ι (S.j P.2) / S.ι S.xi = d
    linear_combination (S.ι m.2.2 * a) ^ 2 * e8 - (S.ι m.2.1 * d) ^ 2 * hw
  rw [k1] at hne ⊢
  exact S.even _ _ _ hne

variable (S)

/-- P1, P2 and -P3 lie on y = l x + n -/
structure Coll (l n : k) (P1 P2 P3 : k × k) : Prop where
  y1 : P1.2 = l * P1.1 + n
  y2 : P2.2 = l * P2.1 + n
  y3 : -P3.2 = l * P3.1 + n
  id : ∀ t : L, t ^ 3 + S.ι (S.j S.b) - (S.ι (S.j l) * t + S.ι (S.j n)) ^ 2 =
    (t - S.ι (S.j P1.1)) * (t - S.ι (S.j P2.1)) * (t - S.ι (S.j P3.1))

variable {S}

theorem ι_xi_ne : S.ι S.xi ≠ 0 := (map_ne_zero S.ι).2 S.xi_ne

theorem gamma_coll {l n : k} {P1 P2 P3 : k × k} (h1 : S.OnE P1) (h2 : S.OnE P2) (h3 : S.OnE P3) (hc : S.Coll l n P1 P2 P3)
    (A B : S.E') : gamma h1 A B * gamma h2 A B * M l n (A + B) = gamma h3 A B * M l n A * M l n B := by
  have hz1 : ∀ {P : k × k} (h : S.OnE P) (A : S.E'), gamma h A 0 = 1 := fun h A =>
    ((coc h).symm A 0).trans ((coc h).zero_left A)
  have hz2 : ∀ {P : k × k} (h : S.OnE P) (A : S.E'), gamma h 0 A = 1 := fun h A => (coc h).zero_left A
  have hz3 : ∀ {P : k × k} (h : S.OnE P) (A : S.E'), gamma h A (-A) = 1 := fun h A => (coc h).neg A
  by_cases hA : A = 0
  · subst hA; rw [hz2, hz2, hz2, M_zero, zero_add, one_mul, one_mul]
  by_cases hB : B = 0
  · subst hB; rw [hz1, hz1, hz1, M_zero, add_zero, one_mul, one_mul, mul_one]
  by_cases hAB : A + B = 0
  · obtain rfl := eq_neg_of_add_eq_zero_right hAB
    rw [hz3, hz3, hz3, add_neg_cancel, M_zero, mul_assoc, mul_assoc, M_neg, one_mul]
  cases A with
  | zero => exact absurd rfl hA
  | some xA yA hnA =>
  cases B with
  | zero => exact absurd rfl hB
  | some xB yB hnB =>
  obtain ⟨s, c, x3, y3, hn3, e1, e2, ey1, ey2, ey3, hid⟩ := chord hnA hnB hAB
  obtain ⟨hn3', e3⟩ := neg_some hn3
  have key := recip_twist (w := S.w) ι_xi_ne S.w6 hc.id (by
    intro t
    have := hid S.ι t
    rw [S.tw_eq, map_div₀] at this
    exact this)
  have hv : ∀ P : k × k, P.2 = l * P.1 + n → S.val P (-c, 1, -s) =
      (S.ι (S.j l) * S.ι (S.j P.1) + S.ι (S.j n)) / S.ι S.xi * S.w ^ 3 -
      S.ι s * (S.ι (S.j P.1) / S.ι S.xi * S.w ^ 4) - S.ι c := by
    intro P hP
    unfold val evl PX PY
    dsimp only
    rw [hP, map_div₀, map_div₀, map_neg, map_neg, map_one]
    simp only [map_add, map_mul]
    ring
  have hm : ∀ {x y : K} (hn : (curve S.tw).Nonsingular x y), y = s * x + c → mv l n (.some x y hn : S.E') =
      (S.ι s * S.ι x + S.ι c) - S.ι (S.j l) / S.ι S.xi * S.w ^ 5 * S.ι x -
      S.ι (S.j n) / S.ι S.xi * S.w ^ 3 := by
    intro x y hn hy
    rw [mv_some, ← map_mul, ← map_add, ← hy]
  have key2 := congrArg S.FE key
  have hneg : S.FE (-1) = 1 := by
    have := FE_const (S := S) (d := -1) (neg_ne_zero.2 one_ne_zero)
    rwa [map_neg, map_one] at this
  rw [neg_eq_neg_one_mul, map_mul S.FE (-1), hneg, one_mul] at key2
  rw [← hv P1 hc.y1, ← hv P2 hc.y2, ← hv (P3.1, -P3.2) hc.y3, ← hm hnA ey1, ← hm hnB ey2, ← hm hn3' ey3, ← e2,
    ← e3, ← e1] at key2
  have key3 : gamma h1 (.some _ _ hnA) (.some _ _ hnB) * gamma h2 (.some _ _ hnA) (.some _ _ hnB) *
      gamma h3.neg (.some _ _ hnA) (.some _ _ hnB) =
      M l n (.some _ _ hnA) * M l n (.some _ _ hnB) * M l n (-((Point.some _ _ hnA : S.E') + Point.some _ _ hnB)) := by
    apply Units.ext
    simp only [Units.val_mul, M_coe, gamma_coe, ← map_mul]
    exact key2
  have hM := M_neg (S := S) l n ((Point.some xA yA hnA : S.E') + Point.some xB yB hnB)
  rw [gamma_conj] at key3
  rw [eq_inv_of_mul_eq_one_right hM] at key3
  rw [← div_eq_mul_inv, ← div_eq_mul_inv, div_eq_div_iff_mul_eq_mul] at key3
  rw [key3, mul_assoc (gamma h3 _ _), mul_comm (gamma h3 _ _)]

theorem Phi_u (x : Ext (coc h)) : (Phi h x).u = x.u ^ S.q := rfl
theorem Phi_A (x : Ext (coc h)) : (Phi h x).A = S.phi x.A := rfl

theorem tri_Phi {l n : k} {P1 P2 P3 : k × k} {h1 : S.OnE P1} {h2 : S.OnE P2} {h3 : S.OnE P3}
    {x1 : Ext (coc h1)} {x2 : Ext (coc h2)} {x3 : Ext (coc h3)} (hx : Tri (M l n) x1 x2 x3) :
    Tri (M l n) (Phi h1 x1) (Phi h2 x2) (Phi h3 x3) := by
  refine ⟨?_, ?_, ?_⟩
  · rw [Phi_A, Phi_A, hx.a1]
  · rw [Phi_A, Phi_A, hx.a2]
  · rw [Phi_u, Phi_u, Phi_u, Phi_A, M_phi, ← hx.u, mul_pow, mul_pow]

theorem cob_coll {l n : k} {P1 P2 P3 : k × k} (h1 : S.OnE P1) (h2 : S.OnE P2) (h3 : S.OnE P3)
    (hc : S.Coll l n P1 P2 P3) : Cob (coc h1) (coc h2) (coc h3) (M l n) where
  coll := gamma_coll h1 h2 h3 hc
  neg := M_neg l n
  zero := M_zero l n

theorem ate_coll {l n : k} {P1 P2 P3 : k × k} (h1 : S.OnE P1) (h2 : S.OnE P2) (h3 : S.OnE P3)
    (hc : S.Coll l n P1 P2 P3) {B : S.E'} (hB : Tor S B) : ate h1 B * ate h2 B = ate h3 B := by
  have t0 : Tri (M l n) (⟨(M l n B)⁻¹, B⟩ : Ext (coc h1)) (one1 h2 B) (one1 h3 B) :=
    ⟨rfl, rfl, by rw [one1_u, one1_u, mul_one]; exact inv_mul_cancel _⟩
  have cb := cob_coll h1 h2 h3 hc
  have t1 := ((((t0.nsmul cb S.s).add cb (tri_Phi t0)).sub cb (tri_Phi (tri_Phi t0))).add cb
    (tri_Phi (tri_Phi (tri_Phi t0)))).u
  have e1 := Lam_apply h1 ⟨(M l n B)⁻¹, B⟩
  have e2 := Lam_apply h2 (one1 h2 B)
  have e3 := Lam_apply h3 (one1 h3 B)
  unfold lam at e1 e2 e3
  rw [← e1, ← e2, ← e3] at t1
  rw [Lam_mk h1 hB (by rw [inv_pow, M_pow_r, inv_one]), Lam_one1 h2 hB, Lam_one1 h3 hB, fib_u, fib_u, fib_u, fib_A,
    M_zero, mul_one] at t1
  exact t1

theorem opp_Phi {x : Ext (coc h)} {y : Ext (coc h.neg)} (hx : Opp x y) : Opp (Phi h x) (Phi h.neg y) :=
  ⟨by rw [Phi_A, Phi_A, hx.a], by rw [Phi_u, Phi_u, hx.u, inv_pow]⟩

theorem ate_negP (B : S.E') : ate h.neg B = (ate h B)⁻¹ := by
  have t0 : Opp (one1 h B) (one1 h.neg B) := ⟨rfl, by rw [one1_u, one1_u, inv_one]⟩
  have hc := gamma_conj h
  have t1 := (((t0.nsmul hc S.s).add hc (opp_Phi h t0)).add hc (opp_Phi h (opp_Phi h t0)).neg).u
  unfold ate lam
  rw [sub_eq_add_neg, sub_eq_add_neg]
  exact t1

/-! ### The pairing of group elements -/

variable (S)

/-- the group of the curve over k -/
abbrev E0 := (curve S.b).Point

variable {S}

theorem OnE.of {x y : k} (hn : (curve S.b).Nonsingular x y) : S.OnE (x, y) := ⟨(curve_nonsingular S.good0 x y).1 hn⟩

/-- the pairing as a function of the points; 1 if one is 0 -/
def pair (B : S.E') : S.E0 → Lˣ
  | .zero => 1
  | .some _ _ hn => ate (OnE.of hn) B

theorem pair_zero (B : S.E') : pair B 0 = 1 := rfl
theorem pair_some (B : S.E') {x y : k} (hn : (curve S.b).Nonsingular x y) : pair B (.some x y hn) = ate (OnE.of hn) B := rfl

theorem pair_zero_left (A : S.E0) : pair 0 A = 1 := by
  cases A with
  | zero => rfl
  | some x y hn => exact ate_zero (OnE.of hn)

theorem pair_neg (B : S.E') (A : S.E0) : pair B (-A) = (pair B A)⁻¹ := by
  cases A with
  | zero => exact inv_one.symm
  | some x y hn =>
    obtain ⟨h', e⟩ := neg_some hn
    rw [e, pair_some, pair_some]
    exact ate_negP (OnE.of hn) B

theorem pair_neg_left (B : S.E') (A : S.E0) : pair (-B) A = (pair B A)⁻¹ := by
  cases A with
  | zero => exact inv_one.symm
  | some x y hn => exact ate_neg (OnE.of hn) B

theorem pair_add_left {A B : S.E'} (hA : Tor S A) (hB : Tor S B) (D : S.E0) : pair (A + B) D = pair A D * pair B D := by
  cases D with
  | zero => exact (mul_one 1).symm
  | some x y hn => exact ate_add (OnE.of hn) hA hB

theorem pair_add {B : S.E'} (hB : Tor S B) (A D : S.E0) : pair B (A + D) = pair B A * pair B D := by
  by_cases hA : A = 0
  · rw [hA, zero_add, pair_zero, one_mul]
  by_cases hD : D = 0
  · rw [hD, add_zero, pair_zero, mul_one]
  by_cases hAD : A + D = 0
  · rw [hAD, pair_zero, eq_neg_of_add_eq_zero_right hAD, pair_neg, mul_inv_cancel]
  cases A with
  | zero => exact absurd rfl hA
  | some x1 y1 hn1 =>
  cases D with
  | zero => exact absurd rfl hD
  | some x2 y2 hn2 =>
  obtain ⟨s, c, x3, y3, hn3, e1, -, ey1, ey2, ey3, hid⟩ := chord hn1 hn2 hAD
  rw [e1, pair_some, pair_some, pair_some]
  exact (ate_coll (l := s) (n := c) _ _ _ ⟨ey1, ey2, ey3, fun t => hid (S.ι.comp S.j) t⟩ hB).symm

theorem pair_nsmul_left {B : S.E'} (hB : Tor S B) (A : S.E0) (a : ℕ) : pair (a • B) A = pair B A ^ a := by
  induction a with
  | zero => rw [zero_nsmul, pair_zero_left, pow_zero]
  | succ a ih => rw [succ_nsmul, pair_add_left (hB.nsmul a) hB, ih, pow_succ]

theorem pair_nsmul {B : S.E'} (hB : Tor S B) (A : S.E0) (a : ℕ) : pair B (a • A) = pair B A ^ a := by
  induction a with
  | zero => rw [zero_nsmul, pair_zero, pow_zero]
  | succ a ih => rw [succ_nsmul, pair_add hB, ih, pow_succ]

theorem pair_bilinear {B : S.E'} (hB : Tor S B) (A : S.E0) (a b : ℕ) : pair (a • B) (b • A) = pair B A ^ (a * b) := by
  rw [pair_nsmul (hB.nsmul a), pair_nsmul_left hB, pow_mul]

theorem pair_pow_r {B : S.E'} (hB : Tor S B) (A : S.E0) : pair B A ^ S.r = 1 := by
  rw [← pair_nsmul_left hB, hB.r, pair_zero_left]

end Setup
end Abs
end Verif
