import Verif.Snark.Lemmas

/-!
`in_Fp_mul_xi_addsub` (src/zm2.cpp:1467-1507, SNARK build only): one component of the multiplication by
xi = 9 + u, with a quotient estimate and a table of multiples of p.
-/

namespace Verif.Snark

open scoped Verif.Fp
open Verif.Fp (W4 add4 sub4 mul4x1 add4_ok add4_spec sub4_ok sub4_cases mul4x1_spec)

/-- `pTblSize`, zm2.cpp:46. -/
def pTblSize : ℕ := 10

/-- `pRev`, zm2.cpp:1481. -/
def pRev : ℕ := 0xa948e8c4c474094e

/-- zm2.cpp:1482-1494: the five words [d:gt4:gt3:gt2:gt1] of `[mx] * 9 + [my]` (`doAdd`) or
`[mx] * 9 + p - [my]`. -/
def xiAcc (x y : W4) (doAdd : Bool) : W4 × ℕ :=
  let m := mul4x1 x 9
  if doAdd then
    let s := add4 m.1 y 0
    (s.1, (m.2 + s.2) % B64)
  else
    let s := add4 m.1 (pTbl 1) 0
    let d := (m.2 + s.2) % B64
    let t := sub4 s.1 y 0
    (t.1, (d + B64 - t.2) % B64)

/-- zm2.cpp:1495-1499: `shld(d, gt4, 63)` leaves [d:gt4] >> 1 (63 bits of shift drop all but the lowest
bit of `d`); `mul` by `pRev`, high word shifted right by 60. -/
def xiIndex (s : W4 × ℕ) : ℕ :=
  let d := s.2 % 2 * 2 ^ 63 + s.1.w3 / 2
  d * pRev / B64 / 2 ^ 60

/-- The 32 bytes at `&s_pTbl[1] - 32 + 32 * q`, zm2.cpp:1500-1502.  The table has ten entries; the entry
after it is `halfTbl[0]` (`struct Data`, zm2.cpp:48-53), anything further is left undefined (`ub`). -/
def pTblAt (q : ℕ) : Res W4 :=
  if q < pTblSize then .ok (pTbl q) else if q = pTblSize then .ok (halfTbl 0) else .ub

/-- `in_Fp_mul_xi_addsub`, zm2.cpp:1472-1506. -/
def wMulXi (x y : W4) (doAdd : Bool) : Res W4 := do
  let s := xiAcc x y doAdd
  let t ← pTblAt (xiIndex s)
  pure (addModp (sub4 s.1 t 0).1)

/-- the value the accumulator holds -/
def xiNum (x y : ℕ) (doAdd : Bool) : ℕ := if doAdd then 9 * x + y else 9 * x + p - y

theorem xiAcc_spec {x y : W4} (hx : x.Ok) (hy : y.Ok) (doAdd : Bool)
    (hl : doAdd = false → y.val ≤ 9 * x.val + p) (hu : 9 * x.val + p < 2 * W256)
    (hu' : 9 * x.val + y.val < 2 * W256) :
    (xiAcc x y doAdd).1.Ok ∧
    (xiAcc x y doAdd).1.val + W256 * (xiAcc x y doAdd).2 = xiNum x.val y.val doAdd := by
  obtain ⟨m1, m2, m3⟩ := mul4x1_spec hx (show 9 < B64 by norm_num)
  unfold xiAcc xiNum
  cases doAdd with
  | true =>
    simp only [if_true]
    have h := add4_spec (mul4x1 x 9).1 y 0
    refine ⟨add4_ok _ _ _, ?_⟩
    rw [Nat.mod_eq_of_lt (by omega)]
    omega
  | false =>
    simp only [Bool.false_eq_true, if_false]
    have h := add4_spec (mul4x1 x 9).1 (pTbl 1) 0
    rw [pTbl1_val] at h
    have hs := add4_ok (mul4x1 x 9).1 (pTbl 1) 0
    have hl := hl rfl
    refine ⟨sub4_ok _ _ _, ?_⟩
    rw [Nat.mod_eq_of_lt (a := (mul4x1 x 9).2 + (add4 (mul4x1 x 9).1 (pTbl 1) 0).2) (by omega)]
    rcases sub4_cases hs hy (show 0 ≤ 1 by omega) with ⟨b, _, e⟩ | ⟨b, _, e⟩
    · rw [b, e, show (mul4x1 x 9).2 + (add4 (mul4x1 x 9).1 (pTbl 1) 0).2 + B64 - 0 =
        (mul4x1 x 9).2 + (add4 (mul4x1 x 9).1 (pTbl 1) 0).2 + B64 by omega, Nat.add_mod_right,
        Nat.mod_eq_of_lt (by omega)]
      omega
    · have hv := W4.val_lt hs
      rw [b, e, show (mul4x1 x 9).2 + (add4 (mul4x1 x 9).1 (pTbl 1) 0).2 + B64 - 1 =
        (mul4x1 x 9).2 + (add4 (mul4x1 x 9).1 (pTbl 1) 0).2 - 1 + B64 by omega, Nat.add_mod_right,
        Nat.mod_eq_of_lt (by omega)]
      omega

/-- The estimated quotient: q * p never exceeds the number and the remainder is below 2p. -/
theorem xiIndex_spec {s : W4 × ℕ} (hs : s.1.Ok) {n : ℕ} (h : s.1.val + W256 * s.2 = n)
    (hn : n < 2 * W256) : xiIndex s * p ≤ n ∧ n < xiIndex s * p + 2 * p := by
  obtain ⟨h0, h1, h2, h3⟩ := hs
  have hd : s.2 % 2 * 2 ^ 63 + s.1.w3 / 2 = n / 2 ^ 193 := by
    unfold W4.val at h
    norm_num at h hn ⊢
    omega
  unfold xiIndex
  dsimp only
  rw [hd]
  unfold pRev
  rw [p_eq]
  norm_num at hn ⊢
  constructor <;> omega

theorem wMulXi_spec {x y : W4} (hx : x.Ok) (hy : y.Ok) (doAdd : Bool) (hxp : x.val < p)
    (hyp : y.val < p) : xiIndex (xiAcc x y doAdd) < pTblSize ∧
    ∃ z, wMulXi x y doAdd = .ok z ∧ z.Ok ∧ z.val = xiNum x.val y.val doAdd % p := by
  have hp := p_lt_W
  have h10 : 10 * p < 2 * W256 := by rw [p_eq]; norm_num
  obtain ⟨s1, s2⟩ := xiAcc_spec hx hy doAdd (fun _ => by omega) (by omega) (by omega)
  have hn : xiNum x.val y.val doAdd < 10 * p := by
    unfold xiNum; split <;> omega
  obtain ⟨q1, q2⟩ := xiIndex_spec s1 s2 (by omega)
  unfold wMulXi pTblAt
  dsimp only
  generalize xiAcc x y doAdd = s at *
  generalize xiNum x.val y.val doAdd = n at *
  generalize xiIndex s = q at *
  have hq : q < 10 := by
    by_contra hc
    have : 10 * p ≤ q * p := Nat.mul_le_mul_right _ (by omega)
    omega
  refine ⟨hq, ?_⟩
  rw [if_pos (show q < pTblSize from hq), Res.bind_ok]
  have hv : (sub4 s.1 (pTbl q) 0).1.val = n - q * p := by
    have ht : (pTbl q).val = q * p % W256 := W4.val_of _
    have hl := W4.val_lt s1
    rcases sub4_cases s1 (pTbl_ok q) (show 0 ≤ 1 by omega) with ⟨_, g, e⟩ | ⟨_, g, e⟩ <;>
      rw [e, ht] <;> rw [ht] at g <;> omega
  have ha := addModp_val (sub4_ok s.1 (pTbl q) 0)
  rw [hv] at ha
  refine ⟨_, rfl, addModp_ok (sub4_ok _ _ _), ?_⟩
  rw [ha]
  have hmod : n % p = (n - q * p) % p := by
    conv_lhs => rw [show n = (n - q * p) + q * p by omega, Nat.add_mul_mod_self_right]
  rw [hmod]
  split
  · rw [Nat.mod_eq_of_lt (by assumption)]
  · rw [Nat.mod_eq_sub_mod (by omega), Nat.mod_eq_of_lt (by omega)]

end Verif.Snark
