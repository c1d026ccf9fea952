import Verif.Ec.Lemmas

/-! The routines of `Ec.Model` commute with maps of coordinate types that respect the operations. -/

namespace Verif
namespace Ec
open FF

variable {K L : Type} [Add K] [Sub K] [Mul K] [Neg K] [Inv K] [Zero K] [One K] [FF K]
  [Add L] [Sub L] [Mul L] [Neg L] [Inv L] [Zero L] [One L] [FF L]

structure FHom (φ : K → L) : Prop where
  add : ∀ x y, φ (x + y) = φ x + φ y
  sub : ∀ x y, φ (x - y) = φ x - φ y
  mul : ∀ x y, φ (x * y) = φ x * φ y
  neg : ∀ x, φ (-x) = -φ x
  inv : ∀ x, φ x⁻¹ = (φ x)⁻¹
  zero : φ 0 = 0
  one : φ 1 = 1
  sq : ∀ x, φ (sq x) = sq (φ x)
  isZero : ∀ x, isZero (φ x) = isZero x
  eqb : ∀ x y, eqb (φ x) (φ y) = eqb x y

/-- coordinatewise -/
def jmap (φ : K → L) (P : J K) : J L := ⟨φ P.x, φ P.y, φ P.z⟩

namespace FHom
variable {φ : K → L} (h : FHom φ)
include h

theorem dbl (P : J K) : jmap φ (dbl P) = Ec.dbl (jmap φ P) := by
  simp only [jmap, Ec.dbl, h.add, h.sub, h.mul, h.sq]
theorem ecNeg (P : J K) : jmap φ (Ec.neg P) = Ec.neg (jmap φ P) := by
  simp only [jmap, Ec.neg, h.neg]
theorem clear : jmap φ (Ec.clear : J K) = Ec.clear := by simp only [jmap, Ec.clear, h.zero]

theorem ecAdd (o a b : J K) : jmap φ (Ec.add o a b) = Ec.add (jmap φ o) (jmap φ a) (jmap φ b) := by
  have e : jmap φ (Ec.dbl a) = Ec.dbl (jmap φ a) := h.dbl a
  unfold Ec.add
  simp only [apply_ite (jmap φ)]
  simp only [e]
  simp only [jmap, ← h.sub, ← h.mul, ← h.add, ← h.sq, h.isZero]
  rw [h.zero]
theorem ecSub (o a b : J K) : jmap φ (Ec.sub o a b) = Ec.sub (jmap φ o) (jmap φ a) (jmap φ b) := by
  unfold Ec.sub; rw [h.ecAdd, h.ecNeg]

theorem smLoop (W : ℕ) (i : J K) : ∀ (n v : ℕ) (o : J K), jmap φ (Ec.smLoop W i n v o) = Ec.smLoop W (jmap φ i) n v (jmap φ o)
  | 0, _, _ => rfl
  | n + 1, v, o => by
    unfold Ec.smLoop
    rw [smLoop]
    simp only [apply_ite (jmap φ), h.dbl, h.ecAdd]
theorem smWords (W : ℕ) (i : J K) : ∀ (l : List ℕ) (o : J K), jmap φ (Ec.smWords W i l o) = Ec.smWords W (jmap φ i) l (jmap φ o)
  | [], _ => rfl
  | v :: l, o => by unfold Ec.smWords; rw [smWords, h.smLoop]
theorem smMain (W : ℕ) (i : J K) (l : List ℕ) : jmap φ (Ec.smMain W i l) = Ec.smMain W (jmap φ i) l := by
  cases l with
  | nil => rfl
  | cons v l => unfold Ec.smMain; rw [h.smWords, h.smLoop]
theorem scalarMult (i : J K) (m : List ℕ) : jmap φ (Ec.scalarMult i m) = Ec.scalarMult (jmap φ i) m := by
  unfold Ec.scalarMult; rw [apply_ite (jmap φ), h.clear, h.smMain]
theorem scalarMultInt (i : J K) (m : ℤ) : jmap φ (Ec.scalarMultInt i m) = Ec.scalarMultInt (jmap φ i) m := by
  unfold Ec.scalarMultInt; rw [apply_ite (jmap φ), h.clear, h.smMain]
theorem scalarMultSize (i : J K) (m : ℕ) : jmap φ (Ec.scalarMultSize i m) = Ec.scalarMultSize (jmap φ i) m := by
  unfold Ec.scalarMultSize; rw [apply_ite (jmap φ), h.clear, h.smMain]

theorem isInf (P : J K) : Ec.isInf (jmap φ P) = Ec.isInf P := h.isZero _
theorem eqb_one (x : K) : FF.eqb (φ x) 1 = FF.eqb x 1 := by rw [← h.one, h.eqb]
theorem eqb_zero (x : K) : FF.eqb (φ x) 0 = FF.eqb x 0 := by rw [← h.zero, h.eqb]

theorem normalize (P : J K) : jmap φ (Ec.normalize P) = Ec.normalize (jmap φ P) := by
  have e : FF.eqb (jmap φ P).z 1 = FF.eqb P.z 1 := h.eqb_one _
  unfold Ec.normalize
  rw [h.isInf, e, apply_ite (jmap φ)]
  simp only [jmap, h.mul, h.sq, h.inv, h.one]
theorem normalizeJac (P : J K) : jmap φ (Ec.normalizeJac P) = Ec.normalizeJac (jmap φ P) := by
  have e : FF.eqb (jmap φ P).z 1 = FF.eqb P.z 1 := h.eqb_one _
  have e' : FF.eqb (jmap φ P).z 0 = FF.eqb P.z 0 := h.eqb_zero _
  unfold Ec.normalizeJac
  rw [e, e', apply_ite (jmap φ), apply_ite (jmap φ)]
  simp only [jmap, h.mul, h.sq, h.inv, h.one, h.zero]
theorem ecEq (P Q : J K) : Ec.eq (jmap φ P) (jmap φ Q) = Ec.eq P Q := by
  unfold Ec.eq
  simp only [← h.normalize, h.isInf]
  simp only [jmap, h.eqb]
theorem isOnJac3 {f : K → K} {g : L → L} (hf : ∀ x, φ (f x) = g (φ x)) (P : J K) :
    Ec.isOnJac3 g (jmap φ P) = Ec.isOnJac3 f P := by
  have e' : FF.eqb (jmap φ P).z 0 = FF.eqb P.z 0 := h.eqb_zero _
  unfold Ec.isOnJac3
  rw [e']
  simp only [jmap, ← h.mul, ← h.sq, ← hf, ← h.add, h.eqb]

end FHom
end Ec
end Verif
