import Verif.Init.Lemmas
import Verif.Props.Fp
import Verif.Props.Util

/-! Start-up (rest of C19, link of C51 to the curve parameter). -/

namespace Verif

open Init Fp

/-! ### `eval` for every argument -/

/-- C19: `eval` returns the absolute value of the polynomial, for every z and all coefficients that are not the smallest
`int`; no intermediate value exceeds the capacity. -/
theorem C19_eval {x : Sint} {c0 c1 c2 c3 c4 : ℤ} (wx : WF x.v) (hx : |Sint.toInt x| < 2 ^ 63) (h0 : |c0| < 2 ^ 31)
    (h1 : |c1| < 2 ^ 31) (h2 : |c2| < 2 ^ 31) (h3 : |c3| < 2 ^ 31) (h4 : |c4| < 2 ^ 31) :
    ∃ y, eval x c0 c1 c2 c3 c4 = .ok y ∧ WF y ∧ (val y : ℤ) =
      |c0 + c1 * Sint.toInt x + c2 * Sint.toInt x ^ 2 + c3 * Sint.toInt x ^ 3 + c4 * Sint.toInt x ^ 4| :=
  eval_spec wx (by rw [Int.abs_eq_natAbs] at hx; omega) (by rw [Int.abs_eq_natAbs] at h0; omega)
    (by rw [Int.abs_eq_natAbs] at h1; omega) (by rw [Int.abs_eq_natAbs] at h2; omega) (by rw [Int.abs_eq_natAbs] at h3; omega)
    (by rw [Int.abs_eq_natAbs] at h4; omega)

example : eval ⟨[5], true⟩ 1 6 24 36 36 = .ok [18571] := by decide +kernel

/-! ### The constants of `setModulo` -/

theorem setModulo_run : setModulo none pV = .ok
    { p := pV, pp := pp, pN := [0, 0, 0, 0] ++ pV, pAdd1Div4 := pAdd1Div4V, R := montRV, R2 := montR2, one := 1,
      pTbl := (List.range 10).map (fun i => i * p % 2 ^ 256), pNTbl := (List.range 4).map (fun h => p * 2 ^ 256 / 2 ^ h),
      halfTbl := [0, (p + 1) / 2], quarterTbl := (List.range 4).map (fun i => i * ((p + 1) / 4)),
      invTbl := Init.invLoop 512 (Fp.mul 2 montR2) [] } := by
  have e1 : Vuint.shl [1] 64 = .ok [0, 1] := by decide +kernel
  have e2 : Zm.setV [0, 1] pV = .ok [p % 2 ^ 64] := by decide +kernel
  have e3 : Zm.minus [0, 1] [p % 2 ^ 64] = .ok [2 ^ 64 - p % 2 ^ 64] := by decide +kernel
  have e4 : Zm.inv [0, 1] [2 ^ 64 - p % 2 ^ 64] = .ok [pp] := by decide +kernel
  have e5 : Vuint.shl pV 256 = .ok ([0, 0, 0, 0] ++ pV) := by decide +kernel
  have e6 : (Vuint.add pV [1] >>= fun a => quo a [4]) = .ok pAdd1Div4V := by decide +kernel
  have e7 : (Vuint.shl [1] 256 >>= fun s => rem s pV) = .ok montRV := by decide +kernel
  have e8 : Zm.setV pV montRV = .ok montRV := by decide +kernel
  have e9 : (Zm.times pV montRV montRV >>= fun t => .ok (setDirect t)) = .ok montR2 := by decide +kernel
  have e10 : table (fun i => do let v ← Vuint.mul pV [i]; pure (setDirect v)) (List.range 10) =
    .ok ((List.range 10).map (fun i => i * p % 2 ^ 256)) := by decide +kernel
  have e11 : table (fun h => do let v ← Vuint.shr ([0, 0, 0, 0] ++ pV) h; pure (setDirectD v)) [1, 2, 3] =
    .ok ([1, 2, 3].map (fun h => p * 2 ^ 256 / 2 ^ h)) := by decide +kernel
  have e12 : tablesForDiv pV = .ok ([0, (p + 1) / 2], (List.range 4).map (fun i => i * ((p + 1) / 4))) := by decide +kernel
  have e13 : setDirectD ([0, 0, 0, 0] ++ pV) = p * 2 ^ 256 / 2 ^ 0 := by decide +kernel
  have e14 : Fp.setInt 2 = .ok (Fp.mul 2 montR2) := rfl
  obtain ⟨a, ea, ea'⟩ : ∃ a, Vuint.add pV [1] = .ok a ∧ quo a [4] = .ok pAdd1Div4V := by
    revert e6; rcases Vuint.add pV [1] with a | _ | _ | _ | _ <;> intro h
    · exact ⟨a, rfl, h⟩
    all_goals cases h
  obtain ⟨s, es, es'⟩ : ∃ a, Vuint.shl [1] 256 = .ok a ∧ rem a pV = .ok montRV := by
    revert e7; rcases Vuint.shl [1] 256 with a | _ | _ | _ | _ <;> intro h
    · exact ⟨a, rfl, h⟩
    all_goals cases h
  obtain ⟨t, et, et'⟩ : ∃ a, Zm.times pV montRV montRV = .ok a ∧ setDirect a = montR2 := by
    revert e9; rcases Zm.times pV montRV montRV with a | _ | _ | _ | _ <;> intro h
    · exact ⟨a, rfl, by injection h⟩
    all_goals cases h
  unfold setModulo
  dsimp only
  rw [if_neg (by decide), e1, Res.bind_ok, e2, Res.bind_ok, e3, Res.bind_ok, e4, Res.bind_ok, e5, Res.bind_ok, ea, Res.bind_ok,
    ea', Res.bind_ok, es, Res.bind_ok, es', Res.bind_ok, e8, Res.bind_ok, et, Res.bind_ok, e10, Res.bind_ok, e11, Res.bind_ok,
    e12, Res.bind_ok, e14, Res.bind_ok, et', e13]
  rfl

/-- C19: what the first call of `setModulo` stores for p: the word inverse, the Montgomery constants and the tables are the
numbers the field arithmetic model (`Fp`) works with. -/
theorem C19_consts : ∃ c, setModulo none pV = .ok c ∧ val c.p = p ∧
    c.pp < 2 ^ 64 ∧ (c.pp * p + 1) % 2 ^ 64 = 0 ∧ c.pp = Fp.pp ∧
    val c.pN = p * 2 ^ 256 ∧ 4 * val c.pAdd1Div4 = p + 1 ∧ val c.R = 2 ^ 256 % p ∧ c.R2 = 2 ^ 512 % p ∧ c.one = 1 ∧
    (∀ i, i < 10 → c.pTbl[i]? = some (i * p % 2 ^ 256) ∧ i * p % 2 ^ 256 = (Fp.pTbl i).val) ∧
    (∀ i, i < 6 → c.pTbl[i]? = some (i * p)) ∧
    (∀ h, h < 4 → ∃ n, c.pNTbl[h]? = some n ∧ n * 2 ^ h = p * 2 ^ 256) ∧
    (∀ i, i < 2 → ∃ n, c.halfTbl[i]? = some n ∧ 2 * n = i * (p + 1) ∧ n = (Fp.halfTbl i).val) ∧
    (∀ i, i < 4 → ∃ n, c.quarterTbl[i]? = some n ∧ 4 * n = i * (p + 1) ∧ n = (Fp.quarterTbl i).val) ∧
    ∀ k, k < 512 → ∃ n, c.invTbl[k]? = some n ∧ n = Fp.invTbl k ∧ Canon n ∧ residue n = 2 ^ (512 - k) := by
  refine ⟨_, setModulo_run, by decide +kernel, by decide +kernel, by decide +kernel, rfl, by decide +kernel, by decide +kernel,
    by decide +kernel, by decide +kernel, rfl, ?_, ?_, ?_, ?_, ?_, ?_⟩
  · decide +kernel
  · decide +kernel
  · intro h hh
    have : ∀ h, h < 4 → ((List.range 4).map (fun h => p * 2 ^ 256 / 2 ^ h))[h]? = some (p * 2 ^ 256 / 2 ^ h) ∧
      p * 2 ^ 256 / 2 ^ h * 2 ^ h = p * 2 ^ 256 := by decide +kernel
    exact ⟨_, (this h hh).1, (this h hh).2⟩
  · intro i hi
    have : ∀ i, i < 2 → [0, (p + 1) / 2][i]? = some (i * ((p + 1) / 2)) ∧ 2 * (i * ((p + 1) / 2)) = i * (p + 1) ∧
      i * ((p + 1) / 2) = (Fp.halfTbl i).val := by decide +kernel
    exact ⟨_, (this i hi).1, (this i hi).2⟩
  · intro i hi
    have : ∀ i, i < 4 → ((List.range 4).map (fun i => i * ((p + 1) / 4)))[i]? = some (i * ((p + 1) / 4)) ∧
      4 * (i * ((p + 1) / 4)) = i * (p + 1) ∧ i * ((p + 1) / 4) = (Fp.quarterTbl i).val := by decide +kernel
    exact ⟨_, (this i hi).1, (this i hi).2⟩
  · intro k hk
    obtain ⟨a, b⟩ := invTbl_spec hk
    exact ⟨Fp.invTbl k, by rw [invLoop_get 512 _ _ k hk]; rfl, rfl, a, b⟩

/-- C19: `setModulo` does nothing on later calls, whatever the argument, and exits on a first argument that has not four
words. -/
theorem C19_setModulo_again : (∀ c q, setModulo (some c) q = .ok c) ∧ ∀ q : List ℕ, q.length ≠ 4 → setModulo none q = .exit :=
  ⟨fun _ _ => rfl, fun q h => by unfold setModulo; dsimp only; rw [if_pos h]⟩

example : setModulo none [7] = .exit := C19_setModulo_again.2 _ (by decide)

/-! ### `ParamT::init` -/

/-- the state after `init`, given the constants and the value of `half` -/
def endState (c : Consts) (half : ℕ) : St :=
      { consts := c, z := ⟨[2 ^ 62 + 2 ^ 55 + 1], true⟩, p := pV, r := words4 r,
        t := [(6 * (2 ^ 62 + 2 ^ 55 + 1) ^ 2 + 1) % 2 ^ 64, (6 * (2 ^ 62 + 2 ^ 55 + 1) ^ 2 + 1) / 2 ^ 64],
        largest_c := ⟨[27886288892678111236 % 2 ^ 64, 27886288892678111236 / 2 ^ 64], true⟩, b := 2, half := half,
        b_invxi := Param.b_invxi, gammar := (List.range 5).map Param.gammar, gammar2 := (List.range 5).map Param.gammar2,
        gammar3 := (List.range 5).map Param.gammar3, W2p := Param.W2p, W3p := Param.W3p, Z := Param.Z, i0 := 0, i1 := 1,
        useNAF := false, siTbl := Param.siTbl }

theorem init_run : ∃ half, Canon half ∧ residue half * 2 = 1 ∧ ∀ k c, setModulo k pV = .ok c →
    paramInit k curveFp254BNb = .ok (endState c half) := by
  have e1 : (Sint.setInt64 (fun _ => ⟨[0], false⟩) 0 curveFp254BNb.z >>= fun m => .ok (m 0)) =
    .ok ⟨[2 ^ 62 + 2 ^ 55 + 1], true⟩ := by decide +kernel
  obtain ⟨m, em, em'⟩ : ∃ m, Sint.setInt64 (fun _ => ⟨[0], false⟩) 0 curveFp254BNb.z = .ok m ∧
      m 0 = ⟨[2 ^ 62 + 2 ^ 55 + 1], true⟩ := by
    revert e1
    rcases Sint.setInt64 (fun _ => ⟨[0], false⟩) 0 curveFp254BNb.z with a | _ | _ | _ | _ <;> intro h
    · exact ⟨a, rfl, by injection h⟩
    all_goals cases h
  have e2 : eval ⟨[2 ^ 62 + 2 ^ 55 + 1], true⟩ 1 6 24 36 36 = .ok pV := by decide +kernel
  have e3 : eval ⟨[2 ^ 62 + 2 ^ 55 + 1], true⟩ 1 6 18 36 36 = .ok (words4 r) := by decide +kernel
  have e4 : eval ⟨[2 ^ 62 + 2 ^ 55 + 1], true⟩ 1 0 6 0 0 =
    .ok [(6 * (2 ^ 62 + 2 ^ 55 + 1) ^ 2 + 1) % 2 ^ 64, (6 * (2 ^ 62 + 2 ^ 55 + 1) ^ 2 + 1) / 2 ^ 64] := by decide +kernel
  have e5 : Sint.ofInt 6 = .ok ⟨[6], false⟩ := by decide +kernel
  have e6 : Sint.ofInt 2 = .ok ⟨[2], false⟩ := by decide +kernel
  have e7 : sMul ⟨[6], false⟩ ⟨[2 ^ 62 + 2 ^ 55 + 1], true⟩ = .ok ⟨[6 * (2 ^ 62 + 2 ^ 55 + 1) % 2 ^ 64, 1], true⟩ := by decide +kernel
  have e8 : sAdd ⟨[6 * (2 ^ 62 + 2 ^ 55 + 1) % 2 ^ 64, 1], true⟩ ⟨[2], false⟩ =
    .ok ⟨[27886288892678111236 % 2 ^ 64, 27886288892678111236 / 2 ^ 64], true⟩ := by decide +kernel
  obtain ⟨f1, ef1, cf1, rf1⟩ := C22_setInt (i := 1) (by norm_num) (by norm_num)
  obtain ⟨f2, ef2, cf2, rf2⟩ := C22_setInt (i := 2) (by norm_num) (by norm_num)
  have h2 : (2 : ZMod p) ≠ 0 := by
    have := Fe.two_ne
    intro h
    exact this (Fe.toZ_inj (by rw [Fe.toZ_zero, ← h]; exact Fe.toZ_natCast 2))
  obtain ⟨i2, ei2, ci2, ri2⟩ := (C24_inv cf2).1 (by rw [rf2]; push_cast; exact h2)
  have e9 : expo pV 6 = .ok Param.pSub1Div6V := by decide +kernel
  have e10 : expo pV 3 = .ok Param.pSub1Div3V := by decide +kernel
  have e11 : expo pV 2 = .ok Param.pSub1Div2V := by decide +kernel
  have e12 : (Vuint.mul pV pV >>= fun q => expo q 6) = .ok Param.p2Sub1Div6V := by decide +kernel
  obtain ⟨q, eq, eq'⟩ : ∃ a, Vuint.mul pV pV = .ok a ∧ expo a 6 = .ok Param.p2Sub1Div6V := by
    revert e12; rcases Vuint.mul pV pV with a | _ | _ | _ | _ <;> intro h
    · exact ⟨a, rfl, h⟩
    all_goals cases h
  refine ⟨Fp.mul i2 f1, (C21_mul ci2 cf1).1, ?_, fun k c ec' => ?_⟩
  · rw [(C21_mul ci2 cf1).2, rf1]
    rw [rf2] at ri2
    push_cast at ri2 ⊢
    rw [mul_one, mul_comm]
    exact ri2
  · unfold paramInit
    rw [if_neg (by decide), em, Res.bind_ok, em']
    dsimp only
    rw [e2, Res.bind_ok, e3, Res.bind_ok, e4, Res.bind_ok, e5, Res.bind_ok, e6, Res.bind_ok, e7, Res.bind_ok, e8, Res.bind_ok,
      ec', Res.bind_ok, ef1, Res.bind_ok, ef2, Res.bind_ok, ei2, Res.bind_ok, e9, Res.bind_ok, e10, Res.bind_ok, e11, Res.bind_ok,
      eq, Res.bind_ok, eq', Res.bind_ok, C51_siTbl, Res.bind_ok]
    rfl

/-- C19: `init` with the supported parameter computes p, r, t and 6z+2 from z, gets its field constants from `setModulo`,
and the digit table of the Miller loop from |6z+2|.  `st` is the state of `setModulo`. -/
theorem C19_init (k : Option Consts) (hk : k = none ∨ ∃ c, k = some c ∧ setModulo none pV = .ok c) :
    ∃ s, paramInit k curveFp254BNb = .ok s ∧ setModulo none pV = .ok s.consts ∧
    Sint.toInt s.z = curveZ ∧ s.p = pV ∧ val s.p = p ∧ val s.r = r ∧ (val s.t : ℤ) = 6 * curveZ ^ 2 + 1 ∧
    Sint.toInt s.largest_c = 6 * curveZ + 2 ∧ s.b = 2 ∧ Canon s.half ∧ residue s.half * 2 = 1 ∧
    s.b_invxi * F2.xi = 2 ∧
    (∀ i, i < 5 → s.gammar[i]? = some (F2.xi ^ ((i + 1) * ((p - 1) / 6))) ∧ s.gammar[i]? = some (Param.gammar i) ∧
      s.gammar2[i]? = some (Param.gammar2 i) ∧ s.gammar3[i]? = some (Param.gammar3 i)) ∧
    s.W2p = F2.xi ^ ((p - 1) / 3) ∧ s.W3p = F2.xi ^ ((p - 1) / 2) ∧ F2.ofFe s.Z = F2.xi ^ ((p ^ 2 - 1) / 3) ∧
    s.W2p = Param.W2p ∧ s.W3p = Param.W3p ∧ s.Z = Param.Z ∧ s.i0 = 0 ∧ s.i1 = 1 ∧
    s.useNAF = false ∧ s.siTbl = Param.siTbl ∧ Naf.value s.siTbl = |6 * curveZ + 2| := by
  obtain ⟨half, h1, h2, hr⟩ := init_run
  obtain ⟨c, ec, ec'⟩ : ∃ c, setModulo none pV = .ok c ∧ setModulo k pV = .ok c := by
    rcases hk with rfl | ⟨c, rfl, h⟩
    · exact ⟨_, setModulo_run, setModulo_run⟩
    · exact ⟨c, h, rfl⟩
  have v1 : Sint.toInt ⟨[2 ^ 62 + 2 ^ 55 + 1], true⟩ = curveZ := by decide +kernel
  have v2 : val pV = p := by decide +kernel
  have v3 : val (words4 r) = r := by decide +kernel
  have v4 : (val [(6 * (2 ^ 62 + 2 ^ 55 + 1) ^ 2 + 1) % 2 ^ 64, (6 * (2 ^ 62 + 2 ^ 55 + 1) ^ 2 + 1) / 2 ^ 64] : ℤ) =
    6 * curveZ ^ 2 + 1 := by decide +kernel
  have v5 : Sint.toInt ⟨[27886288892678111236 % 2 ^ 64, 27886288892678111236 / 2 ^ 64], true⟩ = 6 * curveZ + 2 := by decide +kernel
  have v6 : Naf.value Param.siTbl = |6 * curveZ + 2| := by decide +kernel
  refine ⟨_, hr k c ec', ec, v1, rfl, v2, v3, v4, v5, rfl, h1, h2, ?_, ?_, ?_, ?_, ?_, rfl, rfl, rfl, rfl, rfl, rfl, rfl, v6⟩
  · show Param.b_invxi * F2.xi = 2
    rw [Param.b_invxi_eq]
    exact div_mul_cancel₀ _ F2.xi_ne
  · intro i hi
    have : (List.range 5)[i]? = some i := by rw [List.getElem?_range hi]
    unfold endState
    dsimp only
    rw [List.getElem?_map, List.getElem?_map, List.getElem?_map, this]
    refine ⟨?_, rfl, rfl, rfl⟩
    show some (Param.gammar i) = _
    rw [F2.gammar_eq, ← pow_mul, mul_comm]
  · show power F2.xi Param.pSub1Div3V = _
    rw [power_eq F2.xi Param.pSub1Div3V_wf.1.isWords, Param.pSub1Div3V_wf.2]
  · show power F2.xi Param.pSub1Div2V = _
    rw [power_eq F2.xi Param.pSub1Div2V_wf.1.isWords, Param.pSub1Div2V_wf.2]
  · show F2.ofFe Param.Z = _
    rw [Param.Z_eq, ← F2.pow_p, ← pow_succ]
    unfold F2.gam
    rw [← pow_mul, ← pow_mul]
    congr 1

/-- C19: any other parameter ends the program. -/
theorem C19_unsupported (k : Option Consts) {cp : CurveParam} (h : cp ≠ curveFp254BNb) : paramInit k cp = .exit := by
  unfold paramInit; rw [if_pos h]

example : (⟨4965661367192848881, 3, 9, 1⟩ : CurveParam) ≠ curveFp254BNb := by decide

/-- C19: calling `init` again gives the same state. -/
theorem C19_init_again {s : St} (h : paramInit none curveFp254BNb = .ok s) :
    paramInit (some s.consts) curveFp254BNb = .ok s := by
  obtain ⟨half, _, _, hr⟩ := init_run
  have h0 := hr none _ setModulo_run
  rw [h] at h0
  obtain rfl : s = _ := by injection h0
  exact hr _ _ rfl

end Verif
