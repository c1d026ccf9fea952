import Verif.Ec.History
import Verif.Ec.Points

/-!
Evaluation of the scalar multiplication model on plain residues.  The routines of `Ec` are generic in the
coordinate type; they are run here on `L1`, `L2` (numbers modulo p, not in Montgomery form), which the kernel
evaluates quickly, and the results are carried to `Fe`, `F2` by a map that commutes with all operations used.
-/

namespace Verif
open Fp Ec

namespace Light

/-- operations preserved by f -/
structure Hom (L K : Type) [Add L] [Sub L] [Mul L] [Zero L] [FF L] [Add K] [Sub K] [Mul K] [Zero K] [FF K] where
  f : L → K
  add : ∀ x y, f (x + y) = f x + f y
  sub : ∀ x y, f (x - y) = f x - f y
  mul : ∀ x y, f (x * y) = f x * f y
  sq : ∀ x, f (FF.sq x) = FF.sq (f x)
  zero : f 0 = 0
  isZero : ∀ x, FF.isZero (f x) = FF.isZero x

section
variable {L K : Type} [Add L] [Sub L] [Mul L] [Zero L] [FF L] [Add K] [Sub K] [Mul K] [Zero K] [FF K] (h : Hom L K)

def Hom.j (P : J L) : J K := ⟨h.f P.x, h.f P.y, h.f P.z⟩

theorem map_dbl (P : J L) : h.j (dbl P) = dbl (h.j P) := by
  unfold Ec.dbl Hom.j
  simp only [h.add, h.sub, h.mul, h.sq]

theorem map_add (o a b : J L) : h.j (add o a b) = add (h.j o) (h.j a) (h.j b) := by
  have e : ∀ {p q : Prop} [Decidable p] [Decidable q] (x y : J L) (x' y' : J K), (p ↔ q) → h.j x = x' → h.j y = y' →
      h.j (if p then x else y) = if q then x' else y' := by
    intro p q _ _ x y x' y' hpq h1 h2
    by_cases hp : p
    · rw [if_pos hp, if_pos (hpq.1 hp), h1]
    · rw [if_neg hp, if_neg (fun hq => hp (hpq.2 hq)), h2]
  unfold Ec.add
  refine e _ _ _ _ (by rw [show (h.j a).z = h.f a.z from rfl, h.isZero]) rfl ?_
  refine e _ _ _ _ (by rw [show (h.j b).z = h.f b.z from rfl, h.isZero]) rfl ?_
  refine e _ _ _ _ ?_ ?_ ?_
  · unfold Hom.j
    simp only [← h.sub, ← h.mul, ← h.sq, h.isZero]
  · refine e _ _ _ _ ?_ (map_dbl h a) ?_
    · unfold Hom.j
      simp only [← h.sub, ← h.mul, ← h.sq, h.isZero]
    · unfold Hom.j
      simp only [h.zero]
  · unfold Hom.j
    simp only [h.add, h.sub, h.mul, h.sq]

theorem map_smLoop (W : ℕ) (P : J L) : ∀ (n v : ℕ) (o : J L), h.j (smLoop W P n v o) = smLoop W (h.j P) n v (h.j o) := by
  intro n
  induction n with
  | zero => exact fun _ _ => rfl
  | succ n ih =>
    intro v o
    unfold smLoop
    dsimp only
    rw [ih]
    by_cases hv : v.testBit (W - 1) = true
    · rw [if_pos hv, if_pos hv, map_add, map_dbl]
    · rw [if_neg hv, if_neg hv, map_dbl]

theorem map_smWords (W : ℕ) (P : J L) : ∀ (vs : List ℕ) (o : J L), h.j (smWords W P vs o) = smWords W (h.j P) vs (h.j o) := by
  intro vs
  induction vs with
  | nil => exact fun _ => rfl
  | cons v vs ih =>
    intro o
    unfold smWords
    rw [ih, map_smLoop]

theorem map_scalarMult (P : J L) (w : List ℕ) : h.j (scalarMult P w) = scalarMult (h.j P) w := by
  unfold scalarMult
  split_ifs
  · unfold clear Hom.j
    simp only [h.zero]
  · cases w.reverse with
    | nil => rfl
    | cons v vs =>
      unfold smMain
      dsimp only
      rw [map_smWords, map_smLoop]

theorem inf_scalarMult (P : J L) (w : List ℕ) : isInf (scalarMult (h.j P) w) = isInf (scalarMult P w) := by
  rw [← map_scalarMult]
  exact h.isZero _

end

/-! ### Residues -/

structure L1 where
  n : ℕ

instance : Add L1 := ⟨fun x y => ⟨(x.n + y.n) % p⟩⟩
instance : Sub L1 := ⟨fun x y => ⟨(x.n + (p - 1) * y.n) % p⟩⟩
instance : Mul L1 := ⟨fun x y => ⟨x.n * y.n % p⟩⟩
instance : Zero L1 := ⟨⟨0⟩⟩
instance : One L1 := ⟨⟨1⟩⟩
instance : FF L1 := ⟨fun x => x * x, fun x => x.n % p == 0, fun x y => x.n % p == y.n % p⟩

structure L2 where
  a : ℕ
  b : ℕ

instance : Add L2 := ⟨fun x y => ⟨(x.a + y.a) % p, (x.b + y.b) % p⟩⟩
instance : Sub L2 := ⟨fun x y => ⟨(x.a + (p - 1) * y.a) % p, (x.b + (p - 1) * y.b) % p⟩⟩
instance : Mul L2 := ⟨fun x y => ⟨(x.a * y.a + (p - 1) * (x.b * y.b)) % p, (x.a * y.b + x.b * y.a) % p⟩⟩
instance : Zero L2 := ⟨⟨0, 0⟩⟩
instance : One L2 := ⟨⟨1, 0⟩⟩
instance : FF L2 := ⟨fun x => x * x, fun x => x.a % p == 0 && x.b % p == 0, fun x y => x.a % p == y.a % p && x.b % p == y.b % p⟩

theorem toZ_feOf (n : ℕ) : (feOf n).toZ = n := by
  unfold Fe.toZ feOf residue
  dsimp only
  rw [ZMod.natCast_mod, Nat.cast_mul, mul_div_assoc]
  have := residue_montR
  unfold residue at this
  rw [this, mul_one]

theorem cast_pred : ((p - 1 : ℕ) : ZMod p) = -1 := by
  rw [Nat.cast_sub p_pos, ZMod.natCast_self, Nat.cast_one, zero_sub]

theorem feOf_eq {n m : ℕ} (h : (n : ZMod p) = m) : feOf n = feOf m := Fe.toZ_inj (by rw [toZ_feOf, toZ_feOf, h])
theorem feOf_add (n m : ℕ) : feOf ((n + m) % p) = feOf n + feOf m := Fe.toZ_inj (by
  rw [Fe.toZ_add, toZ_feOf, toZ_feOf, toZ_feOf, ZMod.natCast_mod, Nat.cast_add])
theorem feOf_sub (n m : ℕ) : feOf ((n + (p - 1) * m) % p) = feOf n - feOf m := Fe.toZ_inj (by
  rw [Fe.toZ_sub, toZ_feOf, toZ_feOf, toZ_feOf, ZMod.natCast_mod, Nat.cast_add, Nat.cast_mul, cast_pred]; ring)
theorem feOf_mul (n m : ℕ) : feOf (n * m % p) = feOf n * feOf m := Fe.toZ_inj (by
  rw [Fe.toZ_mul, toZ_feOf, toZ_feOf, toZ_feOf, ZMod.natCast_mod, Nat.cast_mul])
theorem feOf_zero : feOf 0 = 0 := Fe.toZ_inj (by rw [toZ_feOf, Fe.toZ_zero, Nat.cast_zero])
theorem feOf_eq_zero (n : ℕ) : feOf n = 0 ↔ n % p = 0 := by
  rw [← Nat.dvd_iff_mod_eq_zero, ← ZMod.natCast_eq_zero_iff, ← toZ_feOf, ← Fe.toZ_zero]
  exact Fe.toZ_inj.eq_iff.symm

def h1 : Hom L1 Fe where
  f x := feOf x.n
  add x y := feOf_add x.n y.n
  sub x y := feOf_sub x.n y.n
  mul x y := feOf_mul x.n y.n
  sq x := (feOf_mul x.n x.n).trans (LawfulFF.sq_eq _).symm
  zero := feOf_zero
  isZero x := by
    rw [Bool.eq_iff_iff, LawfulFF.isZero_iff, feOf_eq_zero]
    exact beq_iff_eq.symm

theorem mul2 (x y : L2) : (⟨feOf (x * y).a, feOf (x * y).b⟩ : F2) = ⟨feOf x.a, feOf x.b⟩ * ⟨feOf y.a, feOf y.b⟩ := by
  refine F2.ext ?_ ?_
  · apply Fe.toZ_inj
    rw [F2.mul_a, Fe.toZ_sub, Fe.toZ_mul, Fe.toZ_mul]
    simp only [toZ_feOf]
    show (((x.a * y.a + (p - 1) * (x.b * y.b)) % p : ℕ) : ZMod p) = _
    rw [ZMod.natCast_mod, Nat.cast_add, Nat.cast_mul, Nat.cast_mul, Nat.cast_mul, cast_pred]; ring
  · apply Fe.toZ_inj
    rw [F2.mul_b, Fe.toZ_add, Fe.toZ_mul, Fe.toZ_mul]
    simp only [toZ_feOf]
    show (((x.a * y.b + x.b * y.a) % p : ℕ) : ZMod p) = _
    rw [ZMod.natCast_mod, Nat.cast_add, Nat.cast_mul, Nat.cast_mul]

def h2 : Hom L2 F2 where
  f x := ⟨feOf x.a, feOf x.b⟩
  add x y := F2.ext (feOf_add _ _) (feOf_add _ _)
  sub x y := F2.ext (feOf_sub _ _) (feOf_sub _ _)
  mul x y := mul2 x y
  sq x := (mul2 x x).trans (LawfulFF.sq_eq _).symm
  zero := F2.ext feOf_zero feOf_zero
  isZero x := by
    rw [Bool.eq_iff_iff, LawfulFF.isZero_iff]
    refine Iff.trans ⟨fun h => ⟨congrArg F2.a h, congrArg F2.b h⟩, fun h => F2.ext h.1 h.2⟩
      (Iff.trans (and_congr (feOf_eq_zero x.a) (feOf_eq_zero x.b)) ?_)
    show _ ↔ (x.a % p == 0 && x.b % p == 0) = true
    rw [Bool.and_eq_true, beq_iff_eq, beq_iff_eq]

theorem inf1 {P : J Fe} {Q : J L1} {w : List ℕ} (e : P = h1.j Q) (h : isInf (scalarMult Q w) = true) :
    isInf (scalarMult P w) = true := by
  rw [e, inf_scalarMult, h]
theorem inf2 {P : J F2} {Q : J L2} {w : List ℕ} (e : P = h2.j Q) (h : isInf (scalarMult Q w) = true) :
    isInf (scalarMult P w) = true := by
  rw [e, inf_scalarMult, h]

/-- X = xZ², Y = yZ³, Z ≠ 0 -/
def eqAff {L : Type} [Sub L] [Mul L] [FF L] (P : J L) (x y : L) : Bool :=
  !FF.isZero P.z && FF.isZero (P.x - x * (P.z * P.z)) && FF.isZero (P.y - y * (P.z * P.z * P.z))

theorem map_eqAff {L K : Type} [Add L] [Sub L] [Mul L] [Zero L] [FF L] [Add K] [Sub K] [Mul K] [Zero K] [FF K]
    (h : Hom L K) (P : J L) (x y : L) : eqAff (h.j P) (h.f x) (h.f y) = eqAff P x y := by
  unfold eqAff Hom.j
  simp only [← h.sub, ← h.mul, h.isZero]

theorem eq_of_aff {K : Type} [Field K] [FF K] [LawfulFF K] {P : J K} {x y : K} (h : eqAff P x y = true) :
    Ec.eq P ⟨x, y, 1⟩ = true := by
  unfold eqAff at h
  simp only [Bool.and_eq_true, Bool.not_eq_true', isZero_false, LawfulFF.isZero_iff, sub_eq_zero] at h
  obtain ⟨⟨hz, hx⟩, hy⟩ := h
  have n1 : Ec.normalize (⟨x, y, 1⟩ : J K) = ⟨x, y, 1⟩ := by
    unfold Ec.normalize
    exact if_pos (by rw [Bool.or_eq_true]; exact .inr ((LawfulFF.eqb_iff _ _).2 rfl))
  have n2 : Ec.normalize P = ⟨x, y, 1⟩ := by
    unfold Ec.normalize
    split_ifs with h0
    · rw [Bool.or_eq_true, LawfulFF.eqb_iff] at h0
      have h1 : P.z = 1 := h0.resolve_left (by rw [Bool.not_eq_true]; exact isZero_false.2 hz)
      ext1
      · rw [hx, h1]; ring
      · rw [hy, h1]; ring
      · exact h1
    · dsimp only
      rw [LawfulFF.sq_eq, hx, hy]
      ext1
      · field_simp
      · field_simp
      · rfl
  unfold Ec.eq
  rw [n1, n2]
  dsimp only
  have : isInf (⟨x, y, 1⟩ : J K) = false := isZero_false.2 one_ne_zero
  rw [this, if_neg Bool.false_ne_true, if_neg Bool.false_ne_true, Bool.and_eq_true]
  exact ⟨(LawfulFF.eqb_iff _ _).2 rfl, (LawfulFF.eqb_iff _ _).2 rfl⟩

theorem eqAff_scalarMult {L K : Type} [Add L] [Sub L] [Mul L] [Zero L] [FF L] [Field K] [FF K] [LawfulFF K]
    (h : Hom L K) (P : J L) (w : List ℕ) (x y : L) (e : eqAff (scalarMult P w) x y = true) :
    Ec.eq (scalarMult (h.j P) w) ⟨h.f x, h.f y, 1⟩ = true := by
  rw [← map_scalarMult]
  exact eq_of_aff ((map_eqAff h _ x y).trans e)

end Light
end Verif
