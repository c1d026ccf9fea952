import Verif.Snark.Value

/-!
SNARK build: on the r-torsion of the twist the p-power endomorphism is multiplication by p.  Points of order r and of order
10069 are checked with the formulas of `Pairing/Group.lean` on pairs of numbers mod p.
-/

namespace Verif.Snark

open Verif.Hom Verif.Ec

namespace Pr
open WeierstrassCurve.Affine

/-! ### Arithmetic of Fp2 on numbers -/

abbrev N2 := ℕ × ℕ

def N2.add (x y : N2) : N2 := ((x.1 + y.1) % p, (x.2 + y.2) % p)
def N2.sub (x y : N2) : N2 := ((x.1 + (p - y.1 % p)) % p, (x.2 + (p - y.2 % p)) % p)
def N2.mul (x y : N2) : N2 := ((x.1 * y.1 + (p - x.2 * y.2 % p)) % p, (x.1 * y.2 + x.2 * y.1) % p)
/-- the element -/
def N2.val (x : N2) : G2 := ⟨(x.1 : ZMod p), (x.2 : ZMod p)⟩

theorem cast_neg (n : ℕ) : ((p - n % p : ℕ) : ZMod p) = -(n : ZMod p) := by
  rw [Nat.cast_sub (Nat.mod_lt _ p_pos).le, ZMod.natCast_mod, ZMod.natCast_self, zero_sub]

theorem N2.val_add (x y : N2) : (N2.add x y).val = x.val + y.val := by
  refine G2.ext ?_ ?_
  · show (((x.1 + y.1) % p : ℕ) : ZMod p) = (x.1 : ZMod p) + y.1
    rw [ZMod.natCast_mod, Nat.cast_add]
  · show (((x.2 + y.2) % p : ℕ) : ZMod p) = (x.2 : ZMod p) + y.2
    rw [ZMod.natCast_mod, Nat.cast_add]
theorem N2.val_sub (x y : N2) : (N2.sub x y).val = x.val - y.val := by
  refine G2.ext ?_ ?_
  · show (((x.1 + (p - y.1 % p)) % p : ℕ) : ZMod p) = (x.1 : ZMod p) - y.1
    rw [ZMod.natCast_mod, Nat.cast_add, cast_neg, sub_eq_add_neg]
  · show (((x.2 + (p - y.2 % p)) % p : ℕ) : ZMod p) = (x.2 : ZMod p) - y.2
    rw [ZMod.natCast_mod, Nat.cast_add, cast_neg, sub_eq_add_neg]
theorem N2.val_mul (x y : N2) : (N2.mul x y).val = x.val * y.val := by
  refine G2.ext ?_ ?_
  · show (((x.1 * y.1 + (p - x.2 * y.2 % p)) % p : ℕ) : ZMod p) = (x.1 : ZMod p) * y.1 - x.2 * y.2
    rw [ZMod.natCast_mod, Nat.cast_add, cast_neg, Nat.cast_mul, Nat.cast_mul, sub_eq_add_neg]
  · show (((x.1 * y.2 + x.2 * y.1) % p : ℕ) : ZMod p) = (x.1 : ZMod p) * y.2 + x.2 * y.1
    rw [ZMod.natCast_mod, Nat.cast_add, Nat.cast_mul, Nat.cast_mul]
/-- below p -/
def N2.Can (x : N2) : Prop := x.1 < p ∧ x.2 < p
instance (x : N2) : Decidable x.Can := by unfold N2.Can; infer_instance
theorem N2.can_sub (x y : N2) : (N2.sub x y).Can := ⟨Nat.mod_lt _ p_pos, Nat.mod_lt _ p_pos⟩
theorem N2.can_mul (x y : N2) : (N2.mul x y).Can := ⟨Nat.mod_lt _ p_pos, Nat.mod_lt _ p_pos⟩
theorem N2.val_ne {x : N2} (h : x.Can) (h0 : x ≠ (0, 0)) : x.val ≠ 0 := by
  intro he
  have h1 : (x.1 : ZMod p) = 0 := congrArg G2.a he
  have h2 : (x.2 : ZMod p) = 0 := congrArg G2.b he
  rw [ZMod.natCast_eq_zero_iff] at h1 h2
  exact h0 (Prod.ext (Nat.eq_zero_of_dvd_of_lt h1 h.1) (Nat.eq_zero_of_dvd_of_lt h2 h.2))
theorem N2.val_zero : N2.val (0, 0) = 0 := G2.ext Nat.cast_zero Nat.cast_zero
theorem N2.val_one : N2.val (1, 0) = 1 := G2.ext Nat.cast_one Nat.cast_zero
theorem N2.val_nat (n : ℕ) : N2.val (n, 0) = (n : G2) :=
  G2.ext (by rw [G2.natCast_a]; rfl) (by rw [G2.natCast_b]; exact Nat.cast_zero)

/-! ### Multiples of a point -/

structure NT where
  x : N2
  y : N2
  z : N2

/-- the triple -/
def NT.val (T : NT) : J G2 := ⟨T.x.val, T.y.val, T.z.val⟩

/-- 1/2 and 1/4 -/
def half : N2 := ((p + 1) / 2, 0)

def NT.dbl (tw : N2) (T : NT) : NT :=
  let y2 := N2.mul T.y T.y
  let e := N2.mul (9, 0) (N2.mul tw (N2.mul T.z T.z))
  let d := N2.add y2 e
  ⟨N2.mul half (N2.mul (N2.mul (N2.sub y2 e) T.x) T.y),
   N2.mul (N2.mul half half) (N2.sub (N2.mul d d) (N2.mul (4, 0) (N2.mul (3, 0) (N2.mul (N2.mul tw (N2.mul T.z T.z)) (N2.mul (9, 0) (N2.mul tw (N2.mul T.z T.z))))))),
   N2.mul (2, 0) (N2.mul (N2.mul y2 T.y) T.z)⟩

def NT.add (T : NT) (Q : N2 × N2) : Option NT :=
  let u := N2.sub T.x (N2.mul T.z Q.1)
  let v := N2.sub T.y (N2.mul T.z Q.2)
  if T.z = (0, 0) ∨ ¬ T.z.Can ∨ (u = (0, 0) ∧ v = (0, 0)) then none else
  let u2 := N2.mul u u
  let u3 := N2.mul u2 u
  let a := N2.mul u2 T.x
  let s := N2.sub (N2.add (N2.mul (N2.mul v v) T.z) u3) (N2.mul (2, 0) a)
  some ⟨N2.mul u s, N2.sub (N2.mul v (N2.sub a s)) (N2.mul u3 T.y), N2.mul u3 T.z⟩

def NT.smul (tw : N2) (Q : N2 × N2) : ℕ → ℕ → Option NT
  | 0, _ => none
  | f + 1, n => if n = 1 then some ⟨Q.1, Q.2, (1, 0)⟩ else
    (NT.smul tw Q f (n / 2)).bind fun T => if n % 2 = 1 then (T.dbl tw).add Q else some (T.dbl tw)

theorem half_val : 2 * half.val = 1 := by
  rw [show (2 : G2) = ((2 : ℕ) : G2) by norm_num, ← N2.val_nat, ← N2.val_mul, ← N2.val_one]
  have : N2.mul (2, 0) half = (1, 0) := by decide +kernel
  rw [this]

theorem nat_val {n : ℕ} : N2.val (n, 0) = (n : G2) := N2.val_nat n
theorem ofNat_val2 : N2.val (2, 0) = (2 : G2) := by rw [N2.val_nat]; norm_num
theorem ofNat_val3 : N2.val (3, 0) = (3 : G2) := by rw [N2.val_nat]; norm_num
theorem ofNat_val4 : N2.val (4, 0) = (4 : G2) := by rw [N2.val_nat]; norm_num
theorem ofNat_val9 : N2.val (9, 0) = (9 : G2) := by rw [N2.val_nat]; norm_num

variable {b : G2}

theorem dbl_ring {K : Type} [Field K] {h y e x t z : K} (h2 : 2 * h = 1) (he : e = 9 * (t * (z * z))) :
    2 * (h * ((y * y - e) * x * y)) = (y ^ 2 - 9 * t * z ^ 2) * x * y ∧
    4 * (h * h * ((y * y + e) * (y * y + e) - 4 * (3 * (t * (z * z) * (9 * (t * (z * z))))))) =
      (y ^ 2 + 9 * t * z ^ 2) ^ 2 - 108 * t ^ 2 * z ^ 4 ∧ 2 * (y * y * y * z) = 2 * y ^ 3 * z := by
  subst he
  refine ⟨?_, ?_, by ring⟩
  · linear_combination ((y ^ 2 - 9 * t * z ^ 2) * x * y) * h2
  · linear_combination ((y ^ 2 + 9 * t * z ^ 2) ^ 2 - 108 * t ^ 2 * z ^ 4) * (2 * h + 1) * h2

theorem NT.dbl_val (tw : N2) (T : NT) :
    (T.dbl tw).x.val = half.val * ((T.y.val * T.y.val - 9 * (tw.val * (T.z.val * T.z.val))) * T.x.val * T.y.val) ∧
    (T.dbl tw).y.val = half.val * half.val * ((T.y.val * T.y.val + 9 * (tw.val * (T.z.val * T.z.val))) *
      (T.y.val * T.y.val + 9 * (tw.val * (T.z.val * T.z.val))) -
      4 * (3 * (tw.val * (T.z.val * T.z.val) * (9 * (tw.val * (T.z.val * T.z.val)))))) ∧
    (T.dbl tw).z.val = 2 * (T.y.val * T.y.val * T.y.val * T.z.val) := by
  unfold NT.dbl
  simp only [N2.val_mul, N2.val_sub, N2.val_add, ofNat_val2, ofNat_val3, ofNat_val4, ofNat_val9, and_self]

theorem dbl_rep_aux {K : Type} [Field K] [DecidableEq K] {b : K} (hb : Good b) {T T' : J K} {h : K} (h2 : 2 * h = 1)
    {A : (curve b).Point} (hA : RepH b T A)
    (e1 : T'.x = h * ((T.y * T.y - 9 * (b * (T.z * T.z))) * T.x * T.y))
    (e2 : T'.y = h * h * ((T.y * T.y + 9 * (b * (T.z * T.z))) * (T.y * T.y + 9 * (b * (T.z * T.z))) -
      4 * (3 * (b * (T.z * T.z) * (9 * (b * (T.z * T.z)))))))
    (e3 : T'.z = 2 * (T.y * T.y * T.y * T.z)) : RepH b T' (A + A) := by
  obtain ⟨k1, k2, k3⟩ := dbl_ring (x := T.x) (y := T.y) (t := b) (z := T.z) h2 rfl
  refine (dbl_step hb hA ?_ ?_ ?_).1
  · rw [e1]; exact k1
  · rw [e2]; exact k2
  · rw [e3]; exact k3

theorem NT.dbl_rep (hb : Good b) {tw : N2} (ht : tw.val = b) {T : NT} {A : (curve b).Point} (hA : RepH b T.val A) :
    RepH b (T.dbl tw).val (A + A) := by
  obtain ⟨k1, k2, k3⟩ := NT.dbl_val tw T
  rw [ht] at k1 k2
  exact dbl_rep_aux hb half_val hA k1 k2 k3

theorem add_rep_aux {K : Type} [Field K] [DecidableEq K] {b : K} (hb : Good b) {T T' : J K} {x y : K}
    (hQ : (curve b).Nonsingular x y) {A : (curve b).Point} (hA : RepH b T A) (hz : T.z ≠ 0)
    (h0 : ¬ (T.x - T.z * x = 0 ∧ T.y - T.z * y = 0)) {u v u2 u3 a s : K} (eu : u = T.x - T.z * x) (ev : v = T.y - T.z * y)
    (e2 : u2 = u * u) (e3 : u3 = u2 * u) (ea : a = u2 * T.x) (es : s = v * v * T.z + u3 - 2 * a)
    (f1 : T'.x = u * s) (f2 : T'.y = v * (a - s) - u3 * T.y) (f3 : T'.z = u3 * T.z) :
    RepH b T' (A + .some _ _ hQ) := by
  subst eu ev e2 e3 ea es
  refine (add_step hb hA hQ ?_ ?_ ?_ ?_ ?_).1
  · rintro rfl
    rcases hA with ⟨h1, -⟩ | ⟨_, _, hn, -, -, -, h1⟩
    · exact hz h1
    · exact Point.some_ne_zero hn h1.symm
  · rintro rfl
    rcases hA with ⟨h1, -⟩ | ⟨x', y', hn, -, ex, ey, h1⟩
    · exact hz h1
    · obtain ⟨rfl, rfl⟩ : x = x' ∧ y = y' := by simpa using h1
      exact h0 ⟨by rw [ex]; ring, by rw [ey]; ring⟩
  · rw [f1]; ring
  · rw [f2]; ring
  · rw [f3]; ring

theorem NT.add_rep (hb : Good b) {T T' : NT} {Q : N2 × N2} (hQ : (curve b).Nonsingular Q.1.val Q.2.val)
    {A : (curve b).Point} (hA : RepH b T.val A) (h : T.add Q = some T') : RepH b T'.val (A + .some _ _ hQ) := by
  unfold NT.add at h
  dsimp only at h
  split_ifs at h with h1
  rw [not_or, not_or, not_not] at h1
  obtain ⟨hz, hc, huv⟩ := h1
  have h' := Option.some.inj h
  subst h'
  refine add_rep_aux hb hQ hA (N2.val_ne hc hz) ?_ (u := (N2.sub T.x (N2.mul T.z Q.1)).val)
    (v := (N2.sub T.y (N2.mul T.z Q.2)).val) ?_ ?_ rfl rfl rfl rfl ?_ ?_ ?_
  · rintro ⟨k1, k2⟩
    apply huv
    constructor
    · by_contra h0
      refine N2.val_ne (N2.can_sub _ _) h0 ?_
      rw [N2.val_sub, N2.val_mul]; exact k1
    · by_contra h0
      refine N2.val_ne (N2.can_sub _ _) h0 ?_
      rw [N2.val_sub, N2.val_mul]; exact k2
  · rw [N2.val_sub, N2.val_mul]; rfl
  · rw [N2.val_sub, N2.val_mul]; rfl
  · show (N2.mul _ _).val = _
    simp only [N2.val_mul, N2.val_sub, N2.val_add, ofNat_val2]; rfl
  · show (N2.sub _ _).val = _
    simp only [N2.val_mul, N2.val_sub, N2.val_add, ofNat_val2]; rfl
  · show (N2.mul _ _).val = _
    simp only [N2.val_mul, N2.val_sub]; rfl

theorem NT.smul_rep (hb : Good b) {tw : N2} (ht : tw.val = b) {Q : N2 × N2} (hQ : (curve b).Nonsingular Q.1.val Q.2.val) :
    ∀ (f n : ℕ) (T : NT), NT.smul tw Q f n = some T → RepH b T.val (n • (Point.some _ _ hQ : (curve b).Point)) := by
  intro f
  induction f with
  | zero => intro n T h; cases h
  | succ f ih =>
    intro n T h
    unfold NT.smul at h
    by_cases h1 : n = 1
    · rw [if_pos h1] at h
      have h' := Option.some.inj h
      subst h' h1
      rw [one_nsmul]
      have := repH_affine hQ
      rw [← N2.val_one] at this
      exact this
    · rw [if_neg h1] at h
      cases e : NT.smul tw Q f (n / 2) with
      | none => rw [e] at h; cases h
      | some U =>
        rw [e, Option.bind_some] at h
        have k := NT.dbl_rep hb ht (ih _ _ e)
        rw [← add_nsmul, ← two_mul] at k
        by_cases h2 : n % 2 = 1
        · rw [if_pos h2] at h
          have := NT.add_rep hb hQ k h
          rw [← succ_nsmul, show 2 * (n / 2) + 1 = n by omega] at this
          exact this
        · rw [if_neg h2] at h
          have h' := Option.some.inj h
          subst h'
          rw [show 2 * (n / 2) = n by omega] at k
          exact k

/-- n times the point is zero -/
def NT.kills (tw : N2) (Q : N2 × N2) (n : ℕ) : Bool :=
  match NT.smul tw Q 300 n with
  | none => false
  | some T => T.z.1 % p == 0 && T.z.2 % p == 0

theorem NT.kills_spec (hb : Good b) {tw : N2} (ht : tw.val = b) {Q : N2 × N2} (hQ : (curve b).Nonsingular Q.1.val Q.2.val)
    {n : ℕ} (h : NT.kills tw Q n = true) : n • (Point.some _ _ hQ : (curve b).Point) = 0 := by
  unfold NT.kills at h
  cases e : NT.smul tw Q 300 n with
  | none => rw [e] at h; cases h
  | some T =>
    rw [e] at h
    simp only [Bool.and_eq_true, beq_iff_eq] at h
    have hz : T.val.z = 0 := G2.ext ((ZMod.natCast_eq_zero_iff _ _).2 (Nat.dvd_of_mod_eq_zero h.1))
      ((ZMod.natCast_eq_zero_iff _ _).2 (Nat.dvd_of_mod_eq_zero h.2))
    rcases NT.smul_rep hb ht hQ 300 n T e with ⟨-, -, -, k⟩ | ⟨_, _, _, k, -⟩
    · exact k
    · exact absurd hz k

/-- n times the point is (x, y) -/
def NT.gives (tw : N2) (Q : N2 × N2) (n : ℕ) (x y : N2) : Bool :=
  match NT.smul tw Q 300 n with
  | none => false
  | some T => decide (T.z ≠ (0, 0) ∧ T.z.Can) && N2.sub T.x (N2.mul x T.z) == (0, 0) && N2.sub T.y (N2.mul y T.z) == (0, 0)

theorem NT.gives_spec (hb : Good b) {tw : N2} (ht : tw.val = b) {Q : N2 × N2} (hQ : (curve b).Nonsingular Q.1.val Q.2.val)
    {n : ℕ} {x y : N2} (h : NT.gives tw Q n x y = true) (hn : (curve b).Nonsingular x.val y.val) :
    n • (Point.some _ _ hQ : (curve b).Point) = .some _ _ hn := by
  unfold NT.gives at h
  cases e : NT.smul tw Q 300 n with
  | none => rw [e] at h; cases h
  | some T =>
    rw [e] at h
    simp only [Bool.and_eq_true, beq_iff_eq, decide_eq_true_eq] at h
    obtain ⟨⟨⟨h1, h2⟩, h3⟩, h4⟩ := h
    have k := NT.smul_rep hb ht hQ 300 n T e
    have e3 := congrArg N2.val h3
    have e4 := congrArg N2.val h4
    rw [N2.val_sub, N2.val_mul, N2.val_zero, sub_eq_zero] at e3 e4
    exact k.unique (.inr ⟨_, _, hn, N2.val_ne h2 h1, e3, e4, rfl⟩)

/-- on the curve -/
def NT.on (tw : N2) (Q : N2 × N2) : Bool :=
  N2.sub (N2.mul Q.2 Q.2) (N2.mul (N2.mul Q.1 Q.1) Q.1) == N2.sub tw (0, 0)

theorem NT.on_spec (hb : Good b) {tw : N2} (ht : tw.val = b) {Q : N2 × N2} (h : NT.on tw Q = true) :
    (curve b).Nonsingular Q.1.val Q.2.val := by
  unfold NT.on at h
  rw [beq_iff_eq] at h
  have e := congrArg N2.val h
  rw [N2.val_sub, N2.val_sub, N2.val_mul, N2.val_mul, N2.val_mul, N2.val_zero, sub_zero, ht] at e
  refine (curve_nonsingular hb _ _).2 ?_
  rw [pow_two, pow_succ, pow_two, ← e]
  exact (add_sub_cancel _ _).symm

/-! ### The twists of the two curves -/

/-- b / xi -/
def twN : Curve → N2
  | .snark1 => (19485874751759354771024239261021720505790618469301721065564631296452457478373, 266929791119991161246907387137283842545076965332900288569378510910307636690)
  | .snark2 => (9, 21888242871839275222246405745257275088696311157297823662689037894645226208582)
/-- a point of order r (for `CurveSNARK1` the usual generator) -/
def genN : Curve → N2 × N2
  | .snark1 => ((10857046999023057135944570762232829481370756359578518086990519993285655852781, 11559732032986387107991004021392285783925812861821192530917403151452391805634),
    (8495653923123431417604973247489272438418190587263600148770280649306958101930, 4082367875863433681332203403145435568316851327593401208105741076214120093531))
  | .snark2 => ((8087582308068108467849390549367247618957791892455944675488846447416574000581, 4022396331217560106629581776738938313692062418130659233913018930126887019831),
    (9662572850481161309295019627353988064322904086193022905820798941846965325846, 12762815186317017726130748229778069405136504004956449996136581345543799624772))
/-- a point of order 10069 -/
def smallN : Curve → N2 × N2
  | .snark1 => ((3138344864621454697933397661259504126069032463087165538981083844499680655273, 16323426719982185837081427000180582393173951580014329337009419178463578247646),
    (14988650035336844053370886476307385379198050308370794622730963968554713256986, 10940209620576202397557664317445483382916570085983222272359817627717962452648))
  | .snark2 => ((12054167444751432136795563009049861537175965742746497268421746408959815724835, 18858722339475462373348246819575195463757593355555334416550031872088999944810),
    (20167577343170684879592414498369049537042739567280677169233035772976021437205, 19917261645838641681881100053562088857191600032527465636330844614153842995547))
/-- gam², gam³ -/
def gamN2 : N2 := (21575463638280843010398324269430826099269044274347216827212613867836435027261, 10307601595873709700152284273816112264069230130616436755625194854815875713954)
def gamN3 : N2 := (2821565182194536844548159561693502659359617185244120367078079554186484126554, 3505843767911556378687030309984248845540243509899259641013678093033130930403)

theorem twN_eq (c : Curve) : N2.mul (twN c) (9, 1) = (bN c, 0) := by cases c <;> decide +kernel
theorem genN_on (c : Curve) : NT.on (twN c) (genN c) = true := by cases c <;> decide +kernel
theorem smallN_on (c : Curve) : NT.on (twN c) (smallN c) = true := by cases c <;> decide +kernel
theorem genN_r (c : Curve) : NT.kills (twN c) (genN c) r = true := by cases c <;> decide +kernel
theorem smallN_ord (c : Curve) : NT.kills (twN c) (smallN c) 10069 = true := by cases c <;> decide +kernel
/-- φ on numbers -/
def phiN (Q : N2 × N2) : N2 × N2 := (N2.mul gamN2 (N2.sub (Q.1.1, 0) (0, Q.1.2)), N2.mul gamN3 (N2.sub (Q.2.1, 0) (0, Q.2.2)))
theorem genN_phi (c : Curve) : NT.gives (twN c) (genN c) (6 * z ^ 2) (phiN (genN c)).1 (phiN (genN c)).2 = true := by
  cases c <;> decide +kernel

theorem val_toMont {x : N2} (h : x.Can) : (⟨toMont x.1, toMont x.2⟩ : R2).sden = x.val :=
  G2.ext (residue_toMont h.1) (residue_toMont h.2)

theorem gamN2_val : gamN2.val = G2.gam ^ 2 := by
  have e : gammar 1 = ⟨toMont gamN2.1, toMont gamN2.2⟩ := by decide +kernel
  rw [← (gammar_val 1).2, e, val_toMont (by decide +kernel)]
theorem gamN3_val : gamN3.val = G2.gam ^ 3 := by
  have e : gammar 2 = ⟨toMont gamN3.1, toMont gamN3.2⟩ := by decide +kernel
  rw [← (gammar_val 2).2, e, val_toMont (by decide +kernel)]

theorem conj_val (x : N2) : (N2.sub (x.1, 0) (0, x.2)).val = x.val.conj := by
  rw [N2.val_sub]
  refine G2.ext ?_ ?_
  · show (x.1 : ZMod p) - ((0 : ℕ) : ZMod p) = x.1
    rw [Nat.cast_zero, sub_zero]
  · show ((0 : ℕ) : ZMod p) - (x.2 : ZMod p) = -(x.2 : ZMod p)
    rw [Nat.cast_zero, zero_sub]

theorem phiN_val (Q : N2 × N2) : (phiN Q).1.val = G2.gam ^ 2 * Q.1.val.conj ∧ (phiN Q).2.val = G2.gam ^ 3 * Q.2.val.conj := by
  unfold phiN
  dsimp only
  rw [N2.val_mul, N2.val_mul, conj_val, conj_val, gamN2_val, gamN3_val]
  exact ⟨rfl, rfl⟩

theorem twN_val (c : Curve) : (twN c).val = c.twist := by
  have e := congrArg N2.val (twN_eq c)
  have h : N2.val (9, 1) = G2.xi := G2.ext (by show ((9 : ℕ) : ZMod p) = 9; norm_num) (by show ((1 : ℕ) : ZMod p) = 1; norm_num)
  rw [N2.val_mul, h, N2.val_nat] at e
  unfold Curve.twist
  rw [bN_eq, Int.cast_natCast, ← e, mul_div_cancel_right₀ _ xi_ne]

theorem p_mod : p = 6 * z ^ 2 + r := by decide +kernel

open Abs Abs.Setup
variable {c : Curve} {S : Setup (ZMod p) G2 G12}

theorem twS (hS : Is c S) : (twN c).val = S.tw := (twN_val c).trans hS.tw.symm

theorem genN_non (hS : Is c S) : (curve S.tw).Nonsingular (genN c).1.val (genN c).2.val :=
  NT.on_spec S.good (twS hS) (genN_on c)

theorem phi_conj (hS : Is c S) {x y : G2} (hn : (curve S.tw).Nonsingular x y) :
    ∃ h', S.phi (.some x y hn) = .some (G2.gam ^ 2 * x.conj) (G2.gam ^ 3 * y.conj) h' := by
  obtain ⟨h', e⟩ := phi_some hn
  have e1 : S.g ^ 2 * x ^ S.q = G2.gam ^ 2 * x.conj := by rw [hS.g, hS.q, G2.pow_p]
  have e2 : S.g ^ 3 * y ^ S.q = G2.gam ^ 3 * y.conj := by rw [hS.g, hS.q, G2.pow_p]
  revert h' e
  rw [e1, e2]
  exact fun h' e => ⟨h', e⟩

/-- the generator -/
theorem genN_tor (hS : Is c S) : Tor S (.some _ _ (genN_non hS)) := by
  have hr : r • (Point.some _ _ (genN_non hS) : S.E') = 0 := NT.kills_spec S.good (twS hS) (genN_non hS) (genN_r c)
  refine ⟨by rw [hS.r]; exact hr, ?_⟩
  obtain ⟨h', e⟩ := phi_conj hS (genN_non hS)
  obtain ⟨k1, k2⟩ := phiN_val (genN c)
  revert h' e
  rw [← k1, ← k2]
  intro h' e
  have hg := NT.gives_spec S.good (twS hS) (genN_non hS) (genN_phi c) h'
  have hq : S.q = 6 * z ^ 2 + r := hS.q.trans p_mod
  rw [e, hq, add_nsmul, hr, add_zero, hg]

theorem card_G2 : Nat.card G2 = p * p := by
  have e : G2 ≃ ZMod p × ZMod p := ⟨fun x => (x.a, x.b), fun x => ⟨x.1, x.2⟩, fun _ => rfl, fun _ => rfl⟩
  rw [Nat.card_congr e, Nat.card_prod, Nat.card_zmod]

instance : Finite G2 := Nat.finite_of_card_ne_zero (by rw [card_G2]; exact mul_ne_zero p_pos.ne' p_pos.ne')

theorem not_r2 (hS : Is c S) : ¬ r * r ∣ Nat.card S.E' := by
  rintro ⟨k, hk⟩
  have hfin : Finite S.E' := Count.finite S.good
  have hle : Nat.card S.E' ≤ 2 * (p * p) + 1 := by rw [← card_G2]; exact Count.card_le S.good
  have hodd := Count.odd S.good (fun x h => S.y_ne2 x 0 (by rw [h]; ring) rfl)
  have hpos : 0 < Nat.card S.E' := Nat.card_pos
  have hd := Count.dvd_card (G := S.E') (q := 10069) (by norm_num)
    (Point.some_ne_zero (NT.on_spec S.good (twS hS) (smallN_on c)))
    (NT.kills_spec S.good (twS hS) _ (smallN_ord c))
  have h3 : 2 * (p * p) + 1 < 3 * (r * r) := by decide +kernel
  have hk3 : k < 3 := by
    by_contra h
    have : r * r * 3 ≤ r * r * k := Nat.mul_le_mul_left _ (by omega)
    omega
  have : k = 0 ∨ k = 1 ∨ k = 2 := by omega
  rcases this with rfl | rfl | rfl
  · rw [mul_zero] at hk; omega
  · rw [hk, mul_one] at hd
    exact absurd hd (by decide +kernel)
  · exact hodd ⟨r * r, by rw [hk, mul_comm]⟩

/-- on the r-torsion of the twist φ is multiplication by p -/
theorem tor_of_r (hS : Is c S) {B : S.E'} (hB : r • B = 0) : Tor S B := by
  have hfin : Finite S.E' := Count.finite S.good
  have hg := genN_tor hS
  obtain ⟨n, rfl⟩ := Count.torsion_cyclic r_prime (not_r2 hS) (Point.some_ne_zero (genN_non hS)) (by rw [← hS.r]; exact hg.r) hB
  refine ⟨by rw [hS.r]; exact hB, ?_⟩
  rw [map_zsmul, hg.phi]; module

theorem tor_iff (hS : Is c S) {B : S.E'} : Tor S B ↔ r • B = 0 :=
  ⟨fun h => by rw [← hS.r]; exact h.r, tor_of_r hS⟩

end Pr
end Verif.Snark
