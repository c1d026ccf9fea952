import Verif.Pairing.Count
import Verif.Pairing.Eval
import Verif.Pairing.Loop

/-! Group orders of E(Fp) and of the twist, the Frobenius on torsion points, absence of exceptional steps. -/

namespace Verif
open Fp Hom Ec
namespace Pairing
open WeierstrassCurve.Affine

instance : Finite Fe := Finite.of_injective Fe.toZ (fun _ _ h => Fe.toZ_inj h)

theorem card_Fe : Nat.card Fe = p := by
  rw [Nat.card_congr Fe.equivZ.toEquiv, Nat.card_zmod]

/-- an element of Fp2 as a pair -/
def F2.toPair (x : F2) : Fe × Fe := (x.a, x.b)
theorem toPair_bij : Function.Bijective F2.toPair :=
  ⟨fun _ _ h => F2.ext (congrArg Prod.fst h) (congrArg Prod.snd h), fun x => ⟨⟨x.1, x.2⟩, rfl⟩⟩

instance : Finite F2 := Finite.of_injective F2.toPair toPair_bij.1

theorem card_F2 : Nat.card F2 = p * p := by
  rw [Nat.card_congr (Equiv.ofBijective _ toPair_bij), Nat.card_prod, card_Fe]

/-- E(Fp) -/
noncomputable abbrev E0 := (curve (2 : Fe)).Point

instance : Finite E0 := Count.finite good1
instance : Finite E' := Count.finite good2

/-- the group element of a valid triple -/
theorem ord_aux {K : Type} [Field K] [DecidableEq K] [FF K] [LawfulFF K] {b : K} (hb : Good b) {T : J K} {A : (curve b).Point}
    (hA : Rep b T A) {s : List ℕ} (hs : WF s) (h : isInf (scalarMult T s) = true) : Verif.val s • A = 0 := by
  have := scalarMult_rep hb hA hs
  rcases this.elim with ⟨_, e⟩ | ⟨_, _, _, hz, _⟩
  · exact e
  · exact absurd ((LawfulFF.isZero_iff _).1 h) hz

theorem rep_affine {K : Type} [Field K] {b : K} (hb : Good b) {T : J K} (hv : Valid b T) (hz : T.z = 1) :
    ∃ hn : (curve b).Nonsingular T.x T.y, Rep b T (.some T.x T.y hn) := by
  have h1 : T.y ^ 2 = T.x ^ 3 + b := by
    rcases hv with h | h
    · rw [hz] at h; exact absurd h one_ne_zero
    · rw [hz] at h; linear_combination h
  have hn := (curve_nonsingular hb _ _).2 h1
  exact ⟨hn, Rep.mk hn (by rw [hz]; exact one_ne_zero) (by rw [hz]; ring) (by rw [hz]; ring)⟩

theorem valid2 {T : J F2} (h : isValid2 T = true) : Valid (2 / F2.xi) T :=
  (isOnJac3_iff _ _ (fun z => by rw [Param.b_invxi_eq]) T).1 h
theorem valid1 {T : J Fe} (h : isValid1 T = true) : Valid 2 T :=
  (isOnJac3_iff _ _ (fun z => by rw [Param.b_eq]; ring) T).1 h

/-- an affine valid triple killed by a prime gives a divisor of the order -/
theorem dvd2 {T : J F2} (hv : isValid2 T = true) (hz : T.z = 1) {q : ℕ} (hq : q.Prime) {s : List ℕ} (hs : WF s ∧ Verif.val s = q)
    (h : isInf (scalarMult T s) = true) : q ∣ Nat.card E' := by
  obtain ⟨hn, hr⟩ := rep_affine good2 (valid2 hv) hz
  have := ord_aux good2 hr hs.1 h
  rw [hs.2] at this
  exact Count.dvd_card hq (Point.some_ne_zero hn) this

theorem norm_pow3 (x : F2) : (x ^ 3).norm = x.norm ^ 3 := by
  rw [pow_succ, pow_two, F2.norm_mul, F2.norm_mul]; ring

theorem cube_ne2 (x : F2) : x ^ 3 ≠ -(2 / F2.xi) := by
  intro h
  rw [← F2.bTw_eq] at h
  have h1 := congrArg F2.norm h
  rw [norm_pow3] at h1
  have h2 : (-F2.bTw).norm = 2 := by
    unfold F2.norm F2.bTw
    simp only [F2.neg_a, F2.neg_b]; ring
  rw [h2] at h1
  exact cube_ne (-x.norm) (by linear_combination -h1)

/-- the order of the twist group -/
abbrev ordN : ℕ := r * (2 * p - r)

theorem ordN_eq : ordN = r * (13 * (96757 * (q3 * q4))) := by
  unfold ordN r; rw [p_eq]; norm_num

theorem card_aux {c N M : ℕ} (hd : N ∣ c) (_hpos : 0 < c) (hle : c ≤ M) (hM : M < N * 3) (hodd : ¬ 2 ∣ c) : c = N := by
  obtain ⟨k, hk⟩ := hd
  have hk3 : k < 3 := by
    by_contra h3
    have h4 : N * 3 ≤ c := by rw [hk]; exact Nat.mul_le_mul_left _ (by omega)
    omega
  have : k = 0 ∨ k = 1 ∨ k = 2 := by omega
  rcases this with rfl | rfl | rfl
  · rw [mul_zero] at hk; omega
  · rw [hk, mul_one]
  · exact absurd ⟨N, by rw [hk, mul_comm]⟩ hodd

theorem card_E' : Nat.card E' = ordN := by
  have d1 := dvd2 tq_valid.1 rfl (q := 13) (by norm_num) w_spec.1 tq1_ord
  have d2 := dvd2 tq_valid.2.1 rfl (q := 96757) (by norm_num) w_spec.2.1 tq2_ord
  have d3 := dvd2 tq_valid.2.2.1 rfl prime_41107782849458509839349 w_spec.2.2.1 tq3_ord
  have d4 := dvd2 tq_valid.2.2.2 rfl prime_324870732488110653643596210448312279829942671333 w_spec.2.2.2.1 tq4_ord
  have d5 := dvd2 g2_valid rfl r_prime w_spec.2.2.2.2.2 g2_ord
  have dN : ordN ∣ Nat.card E' := by
    rw [ordN_eq]
    refine Nat.Coprime.mul_dvd_of_dvd_of_dvd (by unfold r; norm_num) d5 ?_
    refine Nat.Coprime.mul_dvd_of_dvd_of_dvd (by norm_num) d1 ?_
    refine Nat.Coprime.mul_dvd_of_dvd_of_dvd (by norm_num) d2 ?_
    exact Nat.Coprime.mul_dvd_of_dvd_of_dvd (by norm_num) d3 d4
  refine card_aux dN Nat.card_pos (Count.card_le good2) ?_ (Count.odd good2 cube_ne2)
  rw [card_F2]; unfold ordN r; rw [p_eq]; norm_num

theorem card_E0 : Nat.card E0 = r := by
  obtain ⟨hn, hr⟩ := rep_affine good1 (valid1 g1_valid) rfl
  have h1 := ord_aux good1 hr w_spec.2.2.2.2.2.1 g1_ord
  rw [w_spec.2.2.2.2.2.2] at h1
  refine card_aux (Count.dvd_card r_prime (Point.some_ne_zero hn) h1) Nat.card_pos (Count.card_le good1) ?_
    (Count.odd good1 cube_ne)
  rw [card_Fe]; unfold r; rw [p_eq]; norm_num

theorem r_smul (A : E0) : r • A = 0 := by
  rw [← card_E0]; exact card_nsmul_eq_zero'
theorem ordN_smul (B : E') : ordN • B = 0 := by
  rw [← card_E']; exact card_nsmul_eq_zero'

/-! ### Frobenius on the torsion -/

theorem frob_aux {T : J F2} (hv : isValid2 T = true) (hz : T.z = 1) {s : List ℕ} (hs : WF s)
    (h : Ec.eq (scalarMult T s) ⟨(frobTwist1 T.x T.y).1, (frobTwist1 T.x T.y).2, 1⟩ = true)
    {q : ℕ} (hq : q.Prime) (hqq : ¬ q * q ∣ ordN) {s' : List ℕ} (hs' : WF s' ∧ Verif.val s' = q)
    (h' : isInf (scalarMult T s') = true) {B : E'} (hB : q • B = 0) : phi B = Verif.val s • B := by
  obtain ⟨hn, hr⟩ := rep_affine good2 (valid2 hv) hz
  have h1 := ord_aux good2 hr hs'.1 h'
  rw [hs'.2] at h1
  have hf : phi (.some T.x T.y hn) = Verif.val s • (.some T.x T.y hn : E') := by
    obtain ⟨k, e⟩ := phi_some hn
    have r2 := Rep.mk (P := ⟨(frobTwist1 T.x T.y).1, (frobTwist1 T.x T.y).2, 1⟩) k one_ne_zero
      (by ring) (by ring)
    rw [e]
    exact ((eq_spec (scalarMult_rep good2 hr hs) r2).1 h).symm
  obtain ⟨n, rfl⟩ := Count.torsion_cyclic hq (by rw [card_E']; exact hqq) (Point.some_ne_zero hn) h1 hB
  rw [map_zsmul, hf]; module

/-- on the r-torsion of the twist φ is multiplication by p -/
theorem phi_r {B : E'} (hB : r • B = 0) : phi B = p • B := by
  have := frob_aux g2_valid rfl w_spec.2.2.2.2.1.1 g2_frob r_prime (by unfold ordN r; rw [p_eq]; norm_num)
    w_spec.2.2.2.2.2 g2_ord hB
  rwa [w_spec.2.2.2.2.1.2] at this

theorem phi_13 {B : E'} (hB : 13 • B = 0) : phi B = 7 • B :=
  frob_aux tq_valid.1 rfl (by decide : WF [7]) tq1_frob (q := 13) (by norm_num)
    (by unfold ordN r; rw [p_eq]; norm_num) w_spec.1 tq1_ord hB

/-! ### The quartic relation of φ -/

theorem omega_aux {K : Type} [Field K] [DecidableEq K] {b : K} (hb : Good b) {Z : K} (h3 : Z ^ 3 = 1) (h1 : Z ≠ 1) {x y : K}
    (hn : (curve b).Nonsingular x y) (hn1 : (curve b).Nonsingular (Z * x) (-y))
    (hn2 : (curve b).Nonsingular (Z * (Z * x)) (-(-y))) :
    (Point.some _ _ hn2 : (curve b).Point) - .some _ _ hn1 + .some _ _ hn = 0 := by
  have hZ : Z ^ 2 + Z + 1 = 0 := by
    have : (Z - 1) * (Z ^ 2 + Z + 1) = 0 := by linear_combination h3
    exact (mul_eq_zero.1 this).resolve_left (sub_ne_zero.2 h1)
  obtain ⟨k1, e1⟩ := neg_some hn1
  obtain ⟨k2, e2⟩ := neg_some hn2
  rw [sub_eq_add_neg, e1, add_assoc, add_eq_zero_iff_eq_neg']
  rw [e2]
  have heq := (curve_nonsingular hb x y).1 hn
  by_cases hx : x = 0
  · have hy : y ≠ 0 := by
      rintro rfl
      rw [hx] at heq
      exact hb.b (by linear_combination -heq)
    have : (Point.some (Z * x) (-(-y)) k1 : (curve b).Point) = .some x y hn :=
      some_ext (by rw [hx, mul_zero]) (neg_neg y)
    rw [this]
    obtain ⟨h', e⟩ := add_self_aux hb hn hy
    rw [e]
    refine some_ext ?_ ?_
    · rw [hx]; ring
    · rw [hx]; ring
  · have hne : Z * x ≠ x := fun h => h1 (mul_right_cancel₀ hx (h.trans (one_mul x).symm))
    obtain ⟨h', e⟩ := add_aux k1 hn hne
    rw [e]
    refine some_ext ?_ ?_
    · rw [neg_neg, sub_self, zero_div]; linear_combination -x * hZ
    · rw [neg_neg, sub_self, zero_div]; ring

theorem Z_ne : Param.Z ≠ 1 := by decide +kernel

/-- φ⁴ - φ² + 1 = 0 on the twist group -/
theorem phi_quartic (B : E') : phi (phi (phi (phi B))) - phi (phi B) + B = 0 := by
  cases B with
  | zero =>
    show phi (phi (phi (phi 0))) - phi (phi 0) + 0 = (0 : E')
    simp only [map_zero, sub_zero, add_zero]
  | some x y hn =>
    obtain ⟨h1, e1⟩ := phi2_some hn
    rw [e1]
    obtain ⟨h2, e2⟩ := phi2_some h1
    rw [e2]
    simp only [frobTwist2_eq, gam3_norm] at h1 h2 ⊢
    simp only [neg_one_mul] at h1 h2 ⊢
    refine omega_aux good2 ?_ ?_ hn h1 h2
    · have h6 := F2.gam6
      have e : (F2.conj (F2.gam ^ 2) * F2.gam ^ 2) ^ 3 = (F2.gam ^ 6) ^ p * F2.gam ^ 6 := by
        rw [← F2.pow_p]; ring
      rw [e, h6, F2.pow_p]
      ext1 <;> simp only [F2.conj, F2.u, F2.mul_a, F2.mul_b, F2.neg_a, F2.neg_b, F2.one_a, F2.one_b] <;> ring
    · rw [← Param.Z_eq]
      intro h
      exact Z_ne (congrArg F2.a h)

/-! ### No exceptional additions -/

/-- |6z + 2| -/
abbrev sN : ℕ := 27886288892678111236

theorem ord_coprime {B : E'} (hB : B ≠ 0) {n : ℤ} (hg : Int.gcd n ordN = 1) : n • B ≠ 0 := by
  intro h
  exact hB (Count.smul_coprime (by rw [natCast_zsmul]; exact ordN_smul B) h hg)

theorem phi_ne_mul {B : E'} (hB : B ≠ 0) {n : ℤ} (hn : n = sN ∨ n = -sN) : phi B ≠ n • B := by
  intro h
  have q := phi_quartic B
  simp only [h, map_zsmul] at q
  have : (n ^ 4 - n ^ 2 + 1) • B = 0 := by
    rw [← q]
    simp only [add_zsmul, sub_zsmul, one_zsmul, ← mul_zsmul]
    congr 3 <;> ring_nf
  refine ord_coprime hB ?_ this
  rcases hn with rfl | rfl <;> unfold ordN r <;> rw [p_eq] <;> norm_num

theorem last_ne {B : E'} (hB : B ≠ 0) : phi (phi B) + phi B ≠ (sN : ℤ) • B := by
  intro h
  generalize hs : (sN : ℤ) = s at h
  have h2 : phi (phi B) = s • B - phi B := eq_sub_of_add_eq h
  have q := phi_quartic B
  have h4 : phi (phi (phi (phi B))) = s • (s • B - phi B) - (s • phi B - (s • B - phi B)) := by
    rw [h2, map_sub, map_zsmul, map_sub, map_zsmul, h2, map_sub, map_zsmul, h2]
  have h5 : (2 * s) • phi B = (s ^ 2 + 1) • B := by
    rw [h4, h2] at q
    have : s • (s • B - phi B) - (s • phi B - (s • B - phi B)) - (s • B - phi B) + B =
      (s ^ 2 + 1) • B - (2 * s) • phi B := by module
    rw [this] at q
    exact (sub_eq_zero.1 q).symm
  have h6 : (s ^ 4 - 2 * s ^ 3 + 2 * s ^ 2 + 2 * s + 1) • B = 0 := by
    have e1 : (2 * s) • phi (phi B) = (s ^ 2 + 1) • phi B := by
      rw [← map_zsmul, h5, map_zsmul]
    have e2 : (4 * s ^ 2) • phi (phi B) = (s ^ 2 + 1) ^ 2 • B := by
      have : (4 * s ^ 2) • phi (phi B) = (2 * s) • ((2 * s) • phi (phi B)) := by module
      rw [this, e1]
      have : (2 * s) • (s ^ 2 + 1) • phi B = (s ^ 2 + 1) • ((2 * s) • phi B) := by module
      rw [this, h5]; module
    have e3 : (4 * s ^ 2) • phi (phi B) = (4 * s ^ 3) • B - (2 * s * (s ^ 2 + 1)) • B := by
      have : (4 * s ^ 2) • phi (phi B) = (4 * s ^ 3) • B - (2 * s) • ((2 * s) • phi B) := by rw [h2]; module
      rw [this, h5]; module
    have e4 := e2.symm.trans e3
    have : (s ^ 4 - 2 * s ^ 3 + 2 * s ^ 2 + 2 * s + 1) • B
      = (s ^ 2 + 1) ^ 2 • B - ((4 * s ^ 3) • B - (2 * s * (s ^ 2 + 1)) • B) := by module
    rw [this, e4, sub_self]
  have h13 : (13 : ℕ) • B = 0 := by
    have := Count.smul_gcd (N := ordN) (by rw [natCast_zsmul]; exact ordN_smul B) h6
    have hg : Int.gcd (s ^ 4 - 2 * s ^ 3 + 2 * s ^ 2 + 2 * s + 1) ordN = 13 := by
      rw [← hs]; unfold ordN r; rw [p_eq]; norm_num
    rwa [hg] at this
  have h7 := phi_13 h13
  rw [h7, map_nsmul, h7] at h
  have h8 : (56 - s) • B = 0 := by
    rw [sub_zsmul, ← h]; module
  refine hB (Count.smul_coprime (N := 13) (by exact_mod_cast h13) h8 ?_)
  rw [← hs]; norm_num

end Pairing
end Verif
