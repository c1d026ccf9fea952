import Verif.Props.SnarkEc
import Verif.Props.Text
import Verif.Snark.Text

/-!
Property theorems C79: square root, text form of field elements and points, and `EcT::set` of the SNARK build.
-/

namespace Verif.Snark

open Verif.Ec Verif.Text
open WeierstrassCurve.Affine (Point)

/-! ### C79 -/

theorem storeRoot_aux {t x : C1} (ht : ∀ s : ZMod p, s * s = x.den → t.den * t.den = x.den) (y : C1) :
    ((storeRoot t y x).1 = true ↔ ∃ s : ZMod p, s * s = x.den) ∧
    ((storeRoot t y x).1 = true → (storeRoot t y x).2.den * (storeRoot t y x).2.den = x.den) ∧
    ((storeRoot t y x).1 = false → (storeRoot t y x).2 = y) := by
  have he : Fp.eq (t * t).n x.n = true ↔ t.den * t.den = x.den := by rw [eq_den, C1.den_mul]
  unfold storeRoot
  by_cases h : Fp.eq (t * t).n x.n = true
  · rw [if_pos h]
    exact ⟨⟨fun _ => ⟨t.den, he.1 h⟩, fun _ => rfl⟩, fun _ => he.1 h, fun h => absurd h (by simp)⟩
  · rw [if_neg h]
    exact ⟨⟨fun h => absurd h (by simp), fun ⟨s, e⟩ => absurd (he.2 (ht s e)) h⟩, fun h => absurd h (by simp), fun _ => rfl⟩

/-- **C79** `squareRoot(y, x)`: true exactly for squares modulo p; then the stored root squares to x; otherwise y is unchanged -/
theorem C79_squareRoot (y x : C1) :
    ((squareRoot y x).1 = true ↔ ∃ s : ZMod p, s * s = residue x.n) ∧
    ((squareRoot y x).1 = true → residue (squareRoot y x).2.n * residue (squareRoot y x).2.n = residue x.n) ∧
    ((squareRoot y x).1 = false → (squareRoot y x).2 = y) := by
  have hr : ∀ s : ZMod p, s * s = x.den → (power x pAdd1Div4V).den * (power x pAdd1Div4V).den = x.den := fun s e => by
    rw [root_den]; exact root_of_square x s e
  exact storeRoot_aux hr y

/-- 5 is not a square, 4 is; the root stored for 4 is 2 or -2 -/
example : (squareRoot 1 (1 + 1 + 1 + 1 + 1)) = (false, 1) ∧ (squareRoot 1 (1 + 1 + 1 + 1)).1 = true ∧
    (squareRoot 1 (1 + 1 + 1 + 1)).2 ≠ 1 := by decide +kernel

/-- **C79** printing and parsing, in base 10 and 16: every canonical object is read back, also from a stream with white space
before it and text that does not continue the number after it -/
theorem C79_text (base : ℕ) (hb : base = 10 ∨ base = 16) {x : ℕ} (hx : x < p) :
    ∃ s, toStr base x = .ok s ∧ setStr s = .ok x ∧ ∀ ws rest, Blank ws → NotDigit rest →
      read ⟨ws ++ (s ++ rest), false⟩ = .ok (x, ⟨rest, rest.isEmpty⟩) := by
  obtain ⟨s, h1, h2, -, h4⟩ := num_round hb hx
  exact ⟨s, h1, h2, fun ws rest hw hr => h4 ws rest hw.space hr.stops⟩

/-- **C79** the text is the canonical numeral of the number below p that the object stands for -/
theorem C79_text_value {x : ℕ} (hx : x < p) : ∃ n < p, (n : ZMod p) = residue x ∧
    toStr 10 x = .ok (Nat.toDigits 10 n) ∧ toStr 16 x = .ok ('0' :: 'x' :: Nat.toDigits 16 n) := by
  obtain ⟨z, ez, wz, hz, rz⟩ := get_spec hx
  refine ⟨val z, hz, rz, ?_, ?_⟩
  · unfold toStr
    rw [ez, Res.bind_ok, C08_toString wz]
  · unfold toStr
    rw [ez, Res.bind_ok, C09_toString wz]

theorem set_val {z : List ℕ} (hz : WF z) : (val z < 2 ^ 320 → ∃ y, Snark.set z = .ok y ∧ y < p ∧ residue y = (val z : ZMod p)) ∧
    (2 ^ 320 ≤ val z → Snark.set z = .exit) := by
  have e : (2 : ℕ) ^ 320 = B64 ^ 5 := by decide +kernel
  rw [e]
  refine ⟨fun h => set_spec hz (Fp.length_le_of_lt 5 hz h (by norm_num)), fun h => set_exit hz ?_⟩
  by_contra hl
  exact absurd (lt_of_lt_of_le hz.val_lt (Nat.pow_le_pow_right (by norm_num) (not_lt.1 hl))) (not_lt.2 h)

/-- **C79** parsing a decimal or hexadecimal numeral: below 2^320 the object stands for the number modulo p, also when the number
is p or more; from 2^320 on the program exits -/
theorem C79_numeral (n : ℕ) (hn : n < 2 ^ 512) :
    (n < 2 ^ 320 → ∃ y < p, setStr (Nat.toDigits 10 n) = .ok y ∧ setStr ('0' :: 'x' :: Nat.toDigits 16 n) = .ok y ∧
      residue y = (n : ZMod p)) ∧
    (2 ^ 320 ≤ n → setStr (Nat.toDigits 10 n) = .exit ∧ setStr ('0' :: 'x' :: Nat.toDigits 16 n) = .exit) := by
  obtain ⟨z, e1, wz, rfl⟩ := set_toDec (lt_of_le_of_lt (Nat.div_le_self n _) hn)
  obtain ⟨w, e2, ww, vw⟩ := set_toHex (lt_of_lt_of_le hn (Nat.pow_le_pow_right (by norm_num) (by norm_num)) : val z < 2 ^ 576)
  obtain rfl := WF.ext ww wz vw
  unfold setStr
  rw [e1, e2, Res.bind_ok]
  obtain ⟨h1, h2⟩ := set_val ww
  refine ⟨fun h => ?_, fun h => ⟨h2 h, h2 h⟩⟩
  obtain ⟨y, a, b, c⟩ := h1 h
  exact ⟨y, b, a, a, c⟩

example : toStr 10 (Snark.neg montR) =
      .ok "21888242871839275222246405745257275088696311157297823662689037894645226208582".toList ∧
    setStr "21888242871839275222246405745257275088696311157297823662689037894645226208584".toList = .ok montR ∧
    toStr 16 (Snark.add montR montR) = .ok "0x2".toList := by decide +kernel

/-- **C79** elements of the extension fields written to a stream are read back, whatever follows -/
theorem C79_streams (base : ℕ) (hb : base = 10 ∨ base = 16) {x : R2} (hx : x.SCan) {y : R6} (hy : y.SCan) {z : R12} (hz : z.SCan) :
    (∃ s, toStr2 base x = .ok s ∧ setStr2 s = .ok x ∧
      ∀ ws rest, Blank ws → read2 ⟨ws ++ (s ++ rest), false⟩ = .ok (x, ⟨rest, false⟩)) ∧
    (∃ s, toStr6 base y = .ok s ∧
      ∀ ws rest, Blank ws → read6 ⟨ws ++ (s ++ rest), false⟩ = .ok (y, ⟨rest, false⟩)) ∧
    (∃ s, toStr12 base z = .ok s ∧
      ∀ ws rest, Blank ws → read12 ⟨ws ++ (s ++ rest), false⟩ = .ok (z, ⟨rest, false⟩)) := by
  obtain ⟨s, s1, -, s3⟩ := r2_round hb hx
  obtain ⟨t, t1, t3⟩ := r6_round hb hy
  obtain ⟨u, u1, u3⟩ := r12_round hb hz
  refine ⟨⟨s, s1, ?_, fun ws rest hw => s3 ws rest hw.space⟩, ⟨t, t1, fun ws rest hw => t3 ws rest hw.space⟩,
    ⟨u, u1, fun ws rest hw => u3 ws rest hw.space⟩⟩
  unfold setStr2
  have := s3 [] [] (by simp)
  rw [List.nil_append, List.append_nil] at this
  rw [this]; rfl

example : toStr2 10 ⟨Snark.add montR montR, montR⟩ = .ok "[2,1]".toList ∧
    read2 ⟨" [ 2 , 1 ]x".toList, false⟩ = .ok (⟨Snark.add montR montR, montR⟩, ⟨"x".toList, false⟩) ∧
    setStr2 "(2,1)".toList = .throw := by decide +kernel

section
variable {K L : Type} [Add K] [Sub K] [Mul K] [Neg K] [Inv K] [Zero K] [One K] [FF K] [TextF K] [Field L] [FF L] [LawfulFF L]
  [DecidableEq L] {φ : K → L}

theorem point_round (h : FHom φ) (hi : ∀ {x y}, φ x = φ y → x = y) (hK : TextOk K) {b : L} {P : J K} {A : (curve b).Point}
    (hP : Rep b (jmap φ P) A) : ∃ s, Ec.toStr P = .ok s ∧ ∃ Q : J K, Rep b (jmap φ Q) A ∧ (Q.z = 1 ∨ Q = ⟨0, 0, 0⟩) ∧
      ∀ ws rest, Blank ws → Ends rest → Ec.read ⟨ws ++ (s ++ rest), false⟩ = .ok (Q, ⟨rest, false⟩) := by
  obtain ⟨s, h1, h2⟩ := read_toStr hK P
  obtain ⟨-, n2, n3⟩ := norm_aux h hi hP
  have hinf := inf_aux h hP
  refine ⟨s, h1, _, ?_, ?_, fun ws rest hw hr => h2 ws rest hw.space hr.wordEnd⟩
  · by_cases hA : A = 0
    · rw [if_pos (hinf.2 hA)]
      exact .inl ⟨h.zero, hA⟩
    · have hz : FF.eqb P.z 0 = false := by rw [← Bool.not_eq_true]; exact fun t => hA (n2.1 t)
      obtain ⟨-, hn, hA'⟩ := n3 hz
      rw [if_neg fun t => hA (hinf.1 t)]
      have e1 : φ 1 = 1 := h.one
      refine .inr ⟨?_, ?_⟩
      · show φ 1 ≠ 0
        rw [e1]; exact one_ne_zero
      · show ∃ h : (curve b).Nonsingular (φ (Ec.normalize P).x / φ 1 ^ 2) (φ (Ec.normalize P).y / φ 1 ^ 3), A = .some _ _ h
        rw [e1]
        simp only [one_pow, div_one]
        exact ⟨hn, hA'⟩
  · by_cases hi : isInf P = true
    · rw [if_pos hi]; exact .inr rfl
    · rw [if_neg hi]; exact .inl rfl
end

/-- **C79** a valid point of either group written to a stream and read back stands for the same point and is normalised; the point
at infinity too -/
theorem C79_points (c : Curve) {P : J C1} {A : (curve (c.b : ZMod p)).Point} (hP : Rep _ (den1 P) A)
    {Q : J C2} {B : (curve c.twist).Point} (hQ : Rep _ (den2 Q) B) :
    (∃ s, Ec.toStr P = .ok s ∧ ∃ P', Rep _ (den1 P') A ∧ eq P P' = true ∧ (P'.z = 1 ∨ P' = ⟨0, 0, 0⟩) ∧
      ∀ ws rest, Blank ws → Ends rest → Ec.read ⟨ws ++ (s ++ rest), false⟩ = .ok (P', ⟨rest, false⟩)) ∧
    (∃ s, Ec.toStr Q = .ok s ∧ ∃ Q', Rep _ (den2 Q') B ∧ eq Q Q' = true ∧ (Q'.z = 1 ∨ Q' = ⟨0, 0, 0⟩) ∧
      ∀ ws rest, Blank ws → Ends rest → Ec.read ⟨ws ++ (s ++ rest), false⟩ = .ok (Q', ⟨rest, false⟩)) := by
  obtain ⟨s, s1, P', s2, s3, s4⟩ := point_round hom1 C1.den_inj.1 textOk_c1 hP
  obtain ⟨t, t1, Q', t2, t3, t4⟩ := point_round hom2 C2.den_inj.1 textOk_c2 hQ
  exact ⟨⟨s, s1, P', s2, (C77_ops_G1 c P hP s2).2.2.2.2.2.2.2 rfl, s3, s4⟩,
    ⟨t, t1, Q', t2, (C77_ops_G2 c Q hQ t2).2.2.2.2.2.2.2 rfl, t3, t4⟩⟩

/-- **C79** the reader does not check the equation: (1, 1) is accepted and is on neither curve -/
theorem C79_unchecked : ∃ P : J C1, Ec.read ⟨"0x1_0x1".toList, false⟩ = .ok (P, ⟨[], false⟩) ∧
    ∀ (c : Curve) A, ¬Rep (c.b : ZMod p) (den1 P) A := by
  refine ⟨⟨1, 1, 1⟩, by decide +kernel, fun c A h => ?_⟩
  have := h.valid c.good1
  have e1 : residue ((1 : C1).n) = 1 := residue_montR
  unfold Valid den1 at this
  dsimp only at this
  rw [e1] at this
  rcases this with h | h
  · exact one_ne_zero h
  · have hb : (c.b : ZMod p) = 0 := by linear_combination -h
    cases c <;> exact absurd hb (by decide +kernel)

/-- **C79** `set(x, y, z)` with verification accepts exactly the triples on the curve selected last, in both groups, and stores
them; `set(x, y)` is the case z = 1; without verification everything is stored -/
theorem C79_set (l : List Curve) (hl : l ≠ []) : ∃ s, St.start.run l = .ok s ∧
    (∀ P : J C1, (setPt (isValid1 s) P true = .ok P ∨ setPt (isValid1 s) P true = .throw) ∧
      (setPt (isValid1 s) P true = .ok P ↔ residue P.z.n = 0 ∨
        residue P.y.n ^ 2 = residue P.x.n ^ 3 + ((l.getLast hl).b : ZMod p) * residue P.z.n ^ 6) ∧
      setPt (isValid1 s) P false = .ok P) ∧
    (∀ Q : J C2, (setPt (isValid2 s) Q true = .ok Q ∨ setPt (isValid2 s) Q true = .throw) ∧
      (setPt (isValid2 s) Q true = .ok Q ↔ Q.z.v.sden = 0 ∨
        (⟨9, 1⟩ : G2) * Q.y.v.sden ^ 2 = ⟨9, 1⟩ * Q.x.v.sden ^ 3 + ((l.getLast hl).b : G2) * Q.z.v.sden ^ 6) ∧
      setPt (isValid2 s) Q false = .ok Q) := by
  obtain ⟨s, e, h1, h2⟩ := C77_isValid l hl
  have aux : ∀ {K : Type} (valid : J K → Res Bool) (P : J K) (c : Prop), (∃ v, valid P = .ok v ∧ (v = true ↔ c)) →
      (setPt valid P true = .ok P ∨ setPt valid P true = .throw) ∧ (setPt valid P true = .ok P ↔ c) ∧
      setPt valid P false = .ok P := by
    rintro K valid P c ⟨v, e, h⟩
    unfold setPt
    rw [if_pos rfl, e, Res.bind_ok]
    cases v
    · exact ⟨.inr rfl, ⟨fun t => by simp at t, fun t => absurd (h.2 t) (by simp)⟩, rfl⟩
    · exact ⟨.inl rfl, ⟨fun _ => h.1 rfl, fun _ => rfl⟩, rfl⟩
  exact ⟨s, e, fun P => aux _ P _ (h1 P), fun Q => aux _ Q _ (h2 Q)⟩

/-- on CurveSNARK1 `set` accepts (1, 2) and rejects (1, 1), which are written as below -/
example : setPt (isValid1 ⟨true, false, 3, Pr.bufB .snark1⟩) ⟨1, 1 + 1, 1⟩ true = .ok ⟨1, 1 + 1, 1⟩ ∧
    setPt (isValid1 ⟨true, false, 3, Pr.bufB .snark1⟩) ⟨1, 1, 1⟩ true = .throw ∧
    setPt (isValid2 ⟨true, false, 3, Pr.bufB .snark1⟩) (tQ .snark1) true = .ok (tQ .snark1) ∧
    setPt (isValid2 ⟨true, false, 3, Pr.bufB .snark1⟩) (tQ .snark2) true = .throw ∧
    Ec.toStr (⟨1, 1 + 1, 1⟩ : J C1) = .ok "0x1_0x2".toList ∧
    Ec.read ⟨" 0x1_0x2 y".toList, false⟩ = .ok ((⟨1, 1 + 1, 1⟩ : J C1), ⟨" y".toList, false⟩) ∧
    Ec.read ⟨"0".toList, false⟩ = .ok ((⟨0, 0, 0⟩ : J C2), ⟨[], false⟩) := by
  decide +kernel

end Verif.Snark
