import Verif.Jit.Api

/-! The 44 entry points of the generated code: for any contents of the operands, the numbers they store are those of the
functions in Fp/Model.lean and Tower/Raw.lean. -/

namespace Verif
namespace Jit

open Reg

section
variable {g : Cfg} {s : St} {S z x y : ℕ}


theorem raw_FpAdd (h : Call3 g s S 3 z 4 x 4 y 4) :
    Does g .FpAdd s S 3 [(z, 4)] fun t => num t.m z 4 = Fp.add (num s.m x 4) (num s.m y 4) :=
  does_on1 (F := Fp.add) (n := 4) (k := 4) (l := 4) (gtn := 7) (nq := 0) (dep := 0) (fun ra => en_FpAdd g ra) (by norm_num) al_nil h

theorem raw_FpSub (h : Call3 g s S 3 z 4 x 4 y 4) :
    Does g .FpSub s S 3 [(z, 4)] fun t => num t.m z 4 = Fp.sub (num s.m x 4) (num s.m y 4) :=
  does_on1 (F := Fp.sub) (n := 4) (k := 4) (l := 4) (gtn := 7) (nq := 0) (dep := 0) (fun ra => en_FpSub g ra) (by norm_num) al_nil h

theorem raw_FpMul (h : Call3 g s S 7 z 4 x 4 y 4) :
    Does g .FpMul s S 7 [(z, 4)] fun t => num t.m z 4 = Fp.mul (num s.m x 4) (num s.m y 4) :=
  does_on1 (F := Fp.mul) (n := 4) (k := 4) (l := 4) (gtn := 10) (nq := 0) (dep := 1) (fun ra => en_FpMul g ra) (by norm_num) al_nil h

theorem raw_DblAdd (h1 : SameOr z x 8) (h2 : SameOr z y 8) (h : Call3 g s S 3 z 8 x 8 y 8) :
    Does g .DblAdd s S 3 [(z, 8)] fun t => num t.m z 8 = Fp.dblAdd (num s.m x 8) (num s.m y 8) :=
  does_on1 (F := Fp.dblAdd) (n := 8) (k := 8) (l := 8) (gtn := 7) (nq := 0) (dep := 0) (fun ra => en_DblAdd g ra) (by norm_num) (al_inPlace h1 h2) h

theorem raw_DblAddNC (h1 : SameOr z x 8) (h2 : SameOr z y 8) (h : Call3 g s S 4 z 8 x 8 y 8) :
    Does g .DblAddNC s S 4 [(z, 8)] fun t => num t.m z 8 = Fp.dblAddNC (num s.m x 8) (num s.m y 8) :=
  does_on1 (F := Fp.dblAddNC) (n := 8) (k := 8) (l := 8) (gtn := 7) (nq := 0) (dep := 1) (fun ra => en_DblAddNC g ra) (by norm_num) (al_inPlace h1 h2) h

theorem raw_DblSub (h1 : SameOr z x 8) (h2 : SameOr z y 8) (h : Call3 g s S 3 z 8 x 8 y 8) :
    Does g .DblSub s S 3 [(z, 8)] fun t => num t.m z 8 = Fp.dblSub (num s.m x 8) (num s.m y 8) :=
  does_on1 (F := Fp.dblSub) (n := 8) (k := 8) (l := 8) (gtn := 7) (nq := 0) (dep := 0) (fun ra => en_DblSub g ra) (by norm_num) (al_inPlace h1 h2) h

theorem raw_DblSubNC (h1 : SameOr z x 8) (h2 : SameOr z y 8) (h : Call3 g s S 3 z 8 x 8 y 8) :
    Does g .DblSubNC s S 3 [(z, 8)] fun t => num t.m z 8 = Fp.dblSubNC (num s.m x 8) (num s.m y 8) :=
  does_on1 (F := Fp.dblSubNC) (n := 8) (k := 8) (l := 8) (gtn := 7) (nq := 0) (dep := 0) (fun ra => en_DblSubNC g ra) (by norm_num) (al_inPlace h1 h2) h

theorem raw_DblMul (h1 : Apart z 8 x 4) (h2 : Apart z 8 y 4) (h : Call3 g s S 6 z 8 x 4 y 4) :
    Does g .DblMul s S 6 [(z, 8)] fun t => num t.m z 8 = Fp.dblMul (num s.m x 4) (num s.m y 4) :=
  does_on1 (F := Fp.dblMul) (n := 8) (k := 4) (l := 4) (gtn := 10) (nq := 0) (dep := 0) (fun ra => en_DblMul g ra) (by norm_num) (al_apart h1 h2) h

theorem raw_DblMod (h : Call2 g s S 7 z 4 x 8) :
    Does g .DblMod s S 7 [(z, 4)] fun t => num t.m z 4 = Fp.dblMod (num s.m x 8) :=
  (does_un1 (F := Fp.dblMod) (E := fun _ => True) (n := 4) (k := 8) (gtn := 10) (nq := 0) (dep := 1) (en_unit fun ra => en_DblMod g ra) (by norm_num) al_nil h).mono fun _ ht => ht.1

theorem raw_DblNeg (h0 : 0 < z) (h1 : SameOr z x 8) (h : Call2 g s S 0 z 8 x 8) :
    Does g .DblNeg s S 0 [(z, 8)] fun t => num t.m z 8 = Fp.dblNeg (num s.m x 8) :=
  (does_un1 (F := Fp.dblNeg) (E := fun _ => True) (n := 8) (k := 8) (gtn := 4) (nq := 0) (dep := 0) (fun ra hp => (en_DblNeg (ra := ra) h0 hp).mono fun _ ht => ⟨ht, trivial⟩) (by norm_num) (al_same h1) h).mono fun _ ht => ht.1

theorem raw_Fp2Add (h1 : SameOr z x 8) (h2 : SameOr z y 8) (h : Call3 g s S 3 z 8 x 8 y 8) :
    Does g .Fp2Add s S 3 [(z, 8)] fun t => rd2 4 t.m z = Fp2.add (rd2 4 s.m x) (rd2 4 s.m y) :=
  does_on2 (F := Fp2.add) (n := 4) (k := 4) (l := 4) (gtn := 7) (nq := 0) (dep := 0) (fun ra => en_Fp2Add g ra) (by norm_num) (al_inPlace h1 h2) h

theorem raw_Fp2Sub (h1 : SameOr z x 8) (h2 : SameOr z y 8) (h : Call3 g s S 3 z 8 x 8 y 8) :
    Does g .Fp2Sub s S 3 [(z, 8)] fun t => rd2 4 t.m z = Fp2.sub (rd2 4 s.m x) (rd2 4 s.m y) :=
  does_on2 (F := Fp2.sub) (n := 4) (k := 4) (l := 4) (gtn := 7) (nq := 0) (dep := 0) (fun ra => en_Fp2Sub g ra) (by norm_num) (al_inPlace h1 h2) h

theorem raw_Fp2Mul (h : Call3 g s S 40 z 8 x 8 y 8) :
    Does g .Fp2Mul s S 40 [(z, 8)] fun t => rd2 4 t.m z = Fp2.mul (rd2 4 s.m x) (rd2 4 s.m y) :=
  does_on2 (F := Fp2.mul) (n := 4) (k := 4) (l := 4) (gtn := 10) (nq := 0) (dep := 34) (fun ra => en_Fp2Mul g ra) (by norm_num) al_nil h

theorem raw_Fp2MulXi (h1 : Apart z 8 x 8) (h : Call2 g s S 3 z 8 x 8) :
    Does g .Fp2MulXi s S 3 [(z, 8)] fun t => rd2 4 t.m z = Fp2.mulXi (rd2 4 s.m x) :=
  does_at2 (F := Fp2.mulXi) (E := fun _ => True) (n := 4) (k := 4) (gtn := 7) (nq := 0) (dep := 0) (en_unit fun ra => en_Fp2MulXi g ra) (by norm_num) (al_other h1) h

theorem raw_Fp2Square (h1 : SameOr z x 8) (h : Call2 g s S 28 z 8 x 8) :
    Does g .Fp2Square s S 28 [(z, 8)] fun t => rd2 4 t.m z = Fp2.square (rd2 4 s.m x) :=
  does_at2 (F := Fp2.square) (E := fun _ => True) (n := 4) (k := 4) (gtn := 10) (nq := 0) (dep := 22) (en_unit fun ra => en_Fp2Square g ra) (by norm_num) (al_same h1) h

theorem raw_Fp2DivBy2 (h1 : SameOr z x 8) (h : Call2 g s S 4 z 8 x 8) :
    Does g .Fp2DivBy2 s S 4 [(z, 8)] fun t => rd2 4 t.m z = Fp2.divBy2 (rd2 4 s.m x) :=
  does_at2 (F := Fp2.divBy2) (E := fun _ => True) (n := 4) (k := 4) (gtn := 7) (nq := 0) (dep := 1) (en_unit fun ra => en_Fp2DivBy2 g ra) (by norm_num) (al_same h1) h

theorem raw_Fp2MulFp0 (h1 : SameOr z x 8) (h2 : Apart z 8 y 4) (h : Call3 g s S 7 z 8 x 8 y 4) :
    Does g .Fp2MulFp0 s S 7 [(z, 8)] fun t => rd2 4 t.m z = Fp2.mulFp0 (rd2 4 s.m x) (num s.m y 4) :=
  does_fp0 (F := Fp2.mulFp0) (gtn := 10) (nq := 0) (dep := 1) (fun ra => en_Fp2MulFp0 g ra) (by norm_num) (by
    intro e he
    simp only [List.mem_cons, List.not_mem_nil, or_false] at he
    rcases he with rfl | rfl
    · exact h1.elim (fun h => .inr ⟨rfl, h⟩) fun h => .inl (.of h)
    · exact .inl (.of h2)) h

theorem raw_Fp2DblAdd (h1 : SameOr z x 16) (h2 : SameOr z y 16) (h : Call3 g s S 3 z 16 x 16 y 16) :
    Does g .Fp2DblAdd s S 3 [(z, 16)] fun t => rd2 8 t.m z = Fp2.dAdd (rd2 8 s.m x) (rd2 8 s.m y) :=
  does_on2 (F := Fp2.dAdd) (n := 8) (k := 8) (l := 8) (gtn := 7) (nq := 0) (dep := 0) (fun ra => en_Fp2DblAdd g ra) (by norm_num) (al_inPlace h1 h2) h

theorem raw_Fp2DblAddNC (h1 : SameOr z x 16) (h2 : SameOr z y 16) (h : Call3 g s S 4 z 16 x 16 y 16) :
    Does g .Fp2DblAddNC s S 4 [(z, 16)] fun t => rd2 8 t.m z = Fp2.dAddNC (rd2 8 s.m x) (rd2 8 s.m y) :=
  does_on2 (F := Fp2.dAddNC) (n := 8) (k := 8) (l := 8) (gtn := 7) (nq := 0) (dep := 1) (fun ra => en_Fp2DblAddNC g ra) (by norm_num) (al_inPlace h1 h2) h

theorem raw_Fp2DblSub (h1 : SameOr z x 16) (h2 : SameOr z y 16) (h : Call3 g s S 3 z 16 x 16 y 16) :
    Does g .Fp2DblSub s S 3 [(z, 16)] fun t => rd2 8 t.m z = Fp2.dSub (rd2 8 s.m x) (rd2 8 s.m y) :=
  does_on2 (F := Fp2.dSub) (n := 8) (k := 8) (l := 8) (gtn := 7) (nq := 0) (dep := 0) (fun ra => en_Fp2DblSub g ra) (by norm_num) (al_inPlace h1 h2) h

theorem raw_Fp2DblSubNC (h1 : SameOr z x 16) (h2 : SameOr z y 16) (h : Call3 g s S 3 z 16 x 16 y 16) :
    Does g .Fp2DblSubNC s S 3 [(z, 16)] fun t => rd2 8 t.m z = (fun x y : R2 => ⟨Fp.dblSubNC x.a y.a, Fp.dblSubNC x.b y.b⟩) (rd2 8 s.m x) (rd2 8 s.m y) :=
  does_on2 (F := (fun x y : R2 => ⟨Fp.dblSubNC x.a y.a, Fp.dblSubNC x.b y.b⟩)) (n := 8) (k := 8) (l := 8) (gtn := 7) (nq := 0) (dep := 0) (fun ra => en_Fp2DblSubNC g ra) (by norm_num) (al_inPlace h1 h2) h

theorem raw_Fp2DblMulOpt1 (h1 : Apart z 16 x 8) (h2 : Apart z 16 y 8) (h : Call3 g s S 23 z 16 x 8 y 8) :
    Does g .Fp2DblMulOpt1 s S 23 [(z, 16)] fun t => rd2 8 t.m z = Fp2.mulOpt1 (rd2 4 s.m x) (rd2 4 s.m y) :=
  does_on2 (F := Fp2.mulOpt1) (n := 8) (k := 4) (l := 4) (gtn := 10) (nq := 0) (dep := 17) (fun ra => en_Fp2DblMulOpt1 g ra) (by norm_num) (al_apart h1 h2) h

theorem raw_Fp2DblMulOpt2 (h1 : Apart z 16 x 8) (h2 : Apart z 16 y 8) (h : Call3 g s S 23 z 16 x 8 y 8) :
    Does g .Fp2DblMulOpt2 s S 23 [(z, 16)] fun t => rd2 8 t.m z = Fp2.mulOpt2 (rd2 4 s.m x) (rd2 4 s.m y) :=
  does_on2 (F := Fp2.mulOpt2) (n := 8) (k := 4) (l := 4) (gtn := 10) (nq := 0) (dep := 17) (fun ra => en_Fp2DblMulOpt2 g ra) (by norm_num) (al_apart h1 h2) h

theorem raw_Fp2DblSquare (h1 : Apart z 16 x 8) (h : Call2 g s S 14 z 16 x 8) :
    Does g .Fp2DblSquare s S 14 [(z, 16)] fun t => rd2 8 t.m z = Fp2.dSquare (rd2 4 s.m x) :=
  does_at2 (F := Fp2.dSquare) (E := fun _ => True) (n := 8) (k := 4) (gtn := 9) (nq := 0) (dep := 9) (en_unit fun ra => en_Fp2DblSquare g ra) (by norm_num) (al_other h1) h

theorem raw_Fp2DblMod (h1 : Apart z 8 x 16) (h : Call2 g s S 7 z 8 x 16) :
    Does g .Fp2DblMod s S 7 [(z, 8)] fun t => rd2 4 t.m z = Fp2.dMod (rd2 8 s.m x) :=
  does_at2 (F := Fp2.dMod) (E := fun _ => True) (n := 4) (k := 8) (gtn := 10) (nq := 0) (dep := 1) (en_unit fun ra => en_Fp2DblMod g ra) (by norm_num) (al_other h1) h

theorem raw_Fp2DblMulXi (h1 : Apart z 16 x 16) (h : Call2 g s S 4 z 16 x 16) :
    Does g .Fp2DblMulXi s S 4 [(z, 16)] fun t => rd2 8 t.m z = Fp2.dMulXi (rd2 8 s.m x) :=
  does_at2 (F := Fp2.dMulXi) (E := fun _ => True) (n := 8) (k := 8) (gtn := 7) (nq := 0) (dep := 1) (en_unit fun ra => en_Fp2DblMulXi g ra) (by norm_num) (al_other h1) h

theorem raw_Fp2DblNeg (h0 : 0 < z) (h1 : SameOr z x 16) (h : Call2 g s S 0 z 16 x 16) :
    Does g .Fp2DblNeg s S 0 [(z, 16)] fun t => rd2 8 t.m z = (fun x : R2 => ⟨Fp.dblNeg x.a, Fp.dblNeg x.b⟩) (rd2 8 s.m x) :=
  does_at2 (F := (fun x : R2 => ⟨Fp.dblNeg x.a, Fp.dblNeg x.b⟩)) (E := fun _ => True) (n := 8) (k := 8) (gtn := 4) (nq := 0) (dep := 0) (fun ra hp => (en_Fp2DblNeg (ra := ra) h0 hp).mono fun _ ht => ⟨ht, trivial⟩) (by norm_num) (al_same h1) h

theorem raw_Fp6Add (h1 : SameOr z x 24) (h2 : SameOr z y 24) (h : Call3 g s S 4 z 24 x 24 y 24) :
    Does g .Fp6Add s S 4 [(z, 24)] fun t => rd6 4 t.m z = Fp6.add (rd6 4 s.m x) (rd6 4 s.m y) :=
  does_on6 (F := Fp6.add) (n := 4) (k := 4) (l := 4) (gtn := 7) (nq := 0) (dep := 1) (fun ra => en_Fp6Add g ra) (by norm_num) (al_inPlace h1 h2) h

theorem raw_Fp6Sub (h1 : SameOr z x 24) (h2 : SameOr z y 24) (h : Call3 g s S 4 z 24 x 24 y 24) :
    Does g .Fp6Sub s S 4 [(z, 24)] fun t => rd6 4 t.m z = Fp6.sub (rd6 4 s.m x) (rd6 4 s.m y) :=
  does_on6 (F := Fp6.sub) (n := 4) (k := 4) (l := 4) (gtn := 7) (nq := 0) (dep := 1) (fun ra => en_Fp6Sub g ra) (by norm_num) (al_inPlace h1 h2) h

theorem raw_Fp6DblMul (h1 : Apart z 48 x 24) (h2 : Apart z 48 y 24) (h : Call3 g s S 88 z 48 x 24 y 24) :
    Does g .Fp6DblMul s S 88 [(z, 48)] fun t => rd6 8 t.m z = Fp6.dMul (rd6 4 s.m x) (rd6 4 s.m y) :=
  does_on6 (F := Fp6.dMul) (n := 8) (k := 4) (l := 4) (gtn := 10) (nq := 0) (dep := 82) (fun ra => en_Fp6DblMul g ra) (by norm_num) (al_apart h1 h2) h

theorem raw_Fp6Mul (h : Call3 g s S 137 z 24 x 24 y 24) :
    Does g .Fp6Mul s S 137 [(z, 24)] fun t => rd6 4 t.m z = Fp6.mul (rd6 4 s.m x) (rd6 4 s.m y) :=
  does_on6 (F := Fp6.mul) (n := 4) (k := 4) (l := 4) (gtn := 10) (nq := 0) (dep := 131) (fun ra => en_Fp6Mul g ra) (by norm_num) al_nil h

theorem raw_Fp12Mul (h : Call3 g s S 379 z 48 x 48 y 48) :
    Does g .Fp12Mul s S 379 [(z, 48)] fun t => rd12 4 t.m z = Fp12.mul (rd12 4 s.m x) (rd12 4 s.m y) :=
  does_on12 (F := Fp12.mul) (n := 4) (k := 4) (l := 4) (gtn := 10) (nq := 291) (dep := 82) (fun ra => en_Fp12Mul g ra) (by norm_num) al_nil h
theorem raw_Fp12Square (h : Call1 g s S 186 z 48) :
    Does g .Fp12Square s S 186 [(z, 48)] fun t => rd12 4 t.m z = Fp12.square (rd12 4 s.m z) :=
  does_sq12 (F := Fp12.square) (gtn := 10) (nq := 49) (dep := 131) (fun ra => en_Fp12Square g ra) (by norm_num) h
theorem raw_Fp12DblMulFp2_024 (h1 : Apart z 48 x 24) (h : Call2 g s S 151 z 48 x 24) :
    Does g .Fp12DblMulFp2_024 s S 151 [(z, 48)] fun t => rd12 4 t.m z = Fp12.mul024 (rd12 4 s.m z) (rd6 4 s.m x) :=
  does_024 (F := Fp12.mul024) (gtn := 10) (nq := 128) (dep := 17) (fun ra => en_Fp12DblMulFp2_024 g ra) (by norm_num) h1 h
theorem raw_PointDblLineEvalWithoutP {l T : ℕ} (h : CallL g s S 136 l T) :
    Does g .PointDblLineEvalWithoutP s S 136 [(l, 24), (T, 24)] fun t =>
      let e := pointDblLineEvalWithoutP (rd2 4 s.m T) (rd2 4 s.m (T + 8)) (rd2 4 s.m (T + 16))
      rd6 4 t.m l = e.l ∧ rd6 4 t.m T = ⟨e.x, e.y, e.z⟩ :=
  does_line (F := pointDblLineEvalWithoutP) (gtn := 10) (nq := 96) (dep := 34) (fun ra => en_PointDblLineEvalWithoutP g ra) (by norm_num) h
theorem raw_PointDblLineEval {l T Q : ℕ} (h : CallLP g s S 136 l T Q) :
    Does g .PointDblLineEval s S 136 [(l, 24), (T, 24)] fun t =>
      let e := pointDblLineEval (rd2 4 s.m T) (rd2 4 s.m (T + 8)) (rd2 4 s.m (T + 16)) (num s.m Q 4) (num s.m (Q + 4) 4)
      rd6 4 t.m l = e.l ∧ rd6 4 t.m T = ⟨e.x, e.y, e.z⟩ :=
  does_lineP (F := pointDblLineEval) (gtn := 10) (nq := 96) (dep := 34) (fun ra => en_PointDblLineEval g ra) (by norm_num) h

theorem raw_FpAddNC (h : Call3 g s S 0 z 4 x 4 y 4) :
    Does g .FpAddNC s S 0 [(z, 4)] fun t => num t.m z 4 = Fp.addNC (num s.m x 4) (num s.m y 4) :=
  plain1 (F := Fp.addNC) (fun _ => en_FpAddNC) (by decide) al_nil h

theorem raw_FpSubNC (h : Call3 g s S 0 z 4 x 4 y 4) :
    Does g .FpSubNC s S 0 [(z, 4)] fun t => num t.m z 4 = Fp.subNC (num s.m x 4) (num s.m y 4) :=
  plain1 (F := Fp.subNC) (fun _ => en_FpSubNC) (by decide) al_nil h

theorem raw_Fp2AddNC (h1 : SameOr z x 8) (h2 : SameOr z y 8) (h : Call3 g s S 0 z 8 x 8 y 8) :
    Does g .Fp2AddNC s S 0 [(z, 8)] fun t => rd2 4 t.m z = Fp2.addNC (rd2 4 s.m x) (rd2 4 s.m y) :=
  plain2 (F := Fp2.addNC) (fun _ => en_Fp2AddNC) (by decide) (al_inPlace h1 h2) h
theorem raw_FpNeg (h : Call2 g s S 0 z 4 x 4) :
    Does g .FpNeg s S 0 [(z, 4)] fun t => num t.m z 4 = Fp.neg (num s.m x 4) :=
  plainU (F := Fp.neg) (fun _ => en_FpNeg) (by decide) h
theorem shr_val {n : ℕ} (hn : n = 1 ∨ n = 2) (hw : ∀ i, s.m i < B64) : (Fp.wShr n (Fp.W4.of (num s.m x 4))).val = num s.m x 4 / 2 ^ n := by
  rw [← rd4_of hw, (Fp.wShr_val ⟨hw _, hw _, hw _, hw _⟩ n hn).2, ← vn_rd4, vn_num]
theorem raw_FpShr1 (h : Call2 g s S 0 z 4 x 4) :
    Does g .FpShr1 s S 0 [(z, 4)] fun t => num t.m z 4 = num s.m x 4 / 2 := by
  have := plainU (F := fun x => (Fp.wShr 1 (Fp.W4.of x)).val) (fun _ => en_FpShr1) (by decide) h
  simp only [shr_val (.inl rfl) h.words.m] at this
  exact this
theorem raw_FpShr2 (h : Call2 g s S 0 z 4 x 4) :
    Does g .FpShr2 s S 0 [(z, 4)] fun t => num t.m z 4 = num s.m x 4 / 4 := by
  have := plainU (F := fun x => (Fp.wShr 2 (Fp.W4.of x)).val) (fun _ => en_FpShr2) (by decide) h
  simp only [shr_val (.inr rfl) h.words.m] at this
  exact this
theorem raw_FpPreInv {r : Fp.W4} {k : ℕ} (he : Fp.wPreInv (Fp.W4.of (num s.m x 4)) = .ok (r, k)) (h : Call2 g s S 10 z 4 x 4) :
    Does g .FpPreInv s S 10 [(z, 4)] fun t => num t.m z 4 = r.val ∧ t.r rax = k :=
  does_un1 (F := fun _ => r.val) (E := fun t => t.r rax = k) (n := 4) (k := 4) (gtn := 10) (nq := 4) (dep := 0)
    (fun ra hp => en_FpPreInv (ra := ra) rfl (by rw [vn_num]; exact he) hp) (by norm_num) al_nil h
end

end Jit
end Verif
