import Verif.Snark.Ec

/-!
SNARK build: `components::precomputeG2`, `millerLoop` and `millerLoop2` on buffers.  The flag is `false` for the code, `true` for
the checked run (Final.lean).
-/

namespace Verif.Snark
open Verif.Ec

/-! ### Model -/

/-- `pointAddLineEvalWithoutP(l, T, Q); coeff.push_back(l)`, bn.h:3028-3029; the state is (coeff, T) -/
def preAdd (Q : R2 × R2) (st : List R6 × T3) : Res (List R6 × T3) := do
  let e ← pointAddLineEvalWithoutP st.2.x st.2.y st.2.z Q.1 Q.2
  pure (st.1 ++ [e.l], ⟨e.x, e.y, e.z⟩)

/-- the branches of bn.h:3027-3034; `Qneg` is bn.h:3006-3010 -/
def preDigit (Q : R2 × R2) (s : ℤ) (st : List R6 × T3) : Res (List R6 × T3) :=
  if s > 0 then preAdd Q st else if s < 0 then preAdd (Q.1, S2.neg Q.2) st else .ok st

/-- the loop of bn.h:3023-3035 -/
def preLoop (g : Cfg) (Q : R2 × R2) : List ℤ → List R6 × T3 → Res (List R6 × T3)
  | [], st => .ok st
  | s :: t, st => do
    let e ← pointDblLineEvalWithoutP g.b82 g.binv st.2.x st.2.y st.2.z
    let st ← preDigit Q s (st.1 ++ [e.l], ⟨e.x, e.y, e.z⟩)
    preLoop g Q t st

/-- `precomputeG2` after the normalisation, bn.h:3002-3055, SNARK branch -/
def preAff (g : Cfg) (Q : R2 × R2) : Res (List R6) := do
  let d ← pointDblLineEvalWithoutP g.b82 g.binv Q.1 Q.2 ⟨montR, 0⟩
  let st ← preAdd Q ([d.l], ⟨d.x, d.y, d.z⟩)
  let st ← preLoop g Q (siTbl.drop 2) st
  let Q1 := frobTwist1 Q
  let Q2 := frobTwist2 Q
  let st ← preAdd Q1 st
  let st ← preAdd (Q2.1, S2.neg Q2.2) st
  pure st.1

/-- `precomputeG2(coeff, Q, inQ)`, bn.h:2997-3055: coefficients and the normalised point -/
def precomputeG2 (g : Cfg) (inQ : J C2) : Res (List R6 × J C2) := do
  let Q := normalizeJac inQ
  let cs ← preAff g (affQ Q)
  pure (cs, Q)

/-- `Qcoeff[idx]; idx++`: the coefficients not yet read are kept; past the end: undefined -/
def next : List R6 → Res (R6 × List R6)
  | [] => .ub
  | c :: cs => .ok (c, cs)

/-- `l = Qcoeff[idx]; mulFp6_24_Fp_01(l, precP)` -/
def lineAt (c : R6) (P : ℕ × ℕ) : R6 := mulFp6_24_Fp_01 c P.1 P.2

/-- bn.h:3083-3088 -/
def mlDigit (P : ℕ × ℕ) (s : ℤ) (st : R12 × List R6) : Res (R12 × List R6) :=
  if s ≠ 0 then do
    let c ← next st.2
    pure (S12.mul024 st.1 (lineAt c.1 P), c.2)
  else .ok st

/-- the loop of bn.h:3075-3089 -/
def mlLoop (k : Bool) (P : ℕ × ℕ) : List ℤ → R12 × List R6 → Res (R12 × List R6)
  | [], st => .ok st
  | s :: t, st => do
    let c ← next st.2
    let f ← S12.squareK k st.1
    let st ← mlDigit P s (S12.mul024 f (lineAt c.1 P), c.2)
    mlLoop k P t st

/-- `millerLoop(f, Qcoeff, precP)`, bn.h:3060-3106, SNARK branch -/
def millerPre (k : Bool) (cs : List R6) (P : ℕ × ℕ) : Res R12 := do
  let d ← next cs
  let e ← next d.2
  let st ← mlLoop k P (siTbl.drop 2) (S12.mul024_024 (lineAt d.1 P) (lineAt e.1 P), e.2)
  let d ← next st.2
  let e ← next d.2
  S12.mulK k st.1 (S12.mul024_024 (lineAt d.1 P) (lineAt e.1 P))

/-- bn.h:3145-3153 and, with the square, 3134-3143 -/
def ml2Line (k : Bool) (P1 P2 : ℕ × ℕ) (st : R12 × List R6 × List R6) : Res (R12 × List R6 × List R6) := do
  let l1 ← next st.2.1
  let l2 ← next st.2.2
  let f ← S12.mulK k st.1 (S12.mul024_024 (lineAt l1.1 P1) (lineAt l2.1 P2))
  pure (f, l1.2, l2.2)

/-- bn.h:3145 -/
def ml2Digit (k : Bool) (P1 P2 : ℕ × ℕ) (s : ℤ) (st : R12 × List R6 × List R6) : Res (R12 × List R6 × List R6) :=
  if s ≠ 0 then ml2Line k P1 P2 st else .ok st

/-- the loop of bn.h:3133-3154 (in this model the square comes before the reads of the vectors) -/
def ml2Loop (k : Bool) (P1 P2 : ℕ × ℕ) : List ℤ → R12 × List R6 × List R6 → Res (R12 × List R6 × List R6)
  | [], st => .ok st
  | s :: t, st => do
    let f ← S12.squareK k st.1
    let st ← ml2Line k P1 P2 (f, st.2)
    let st ← ml2Digit k P1 P2 s st
    ml2Loop k P1 P2 t st

/-- the reads of `d1`, `d2`, `e1`, `e2` with their products, bn.h:3113-3127 and 3161-3176 -/
def ml2Read (P1 P2 : ℕ × ℕ) (c : List R6 × List R6) : Res ((R12 × R12) × List R6 × List R6) := do
  let d1 ← next c.1
  let d2 ← next c.2
  let e1 ← next d1.2
  let e2 ← next d2.2
  let f1 := S12.mul024_024 (lineAt d1.1 P1) (lineAt e1.1 P1)
  let f2 := S12.mul024_024 (lineAt d2.1 P2) (lineAt e2.1 P2)
  pure ((f1, f2), e1.2, e2.2)

/-- `millerLoop2`, bn.h:3108-3178, SNARK branch -/
def millerPre2 (k : Bool) (c1 : List R6) (P1 : ℕ × ℕ) (c2 : List R6) (P2 : ℕ × ℕ) : Res R12 := do
  let h ← ml2Read P1 P2 (c1, c2)
  let f ← S12.mulK k h.1.1 h.1.2
  let st ← ml2Loop k P1 P2 (siTbl.drop 2) (f, h.2)
  let h ← ml2Read P1 P2 st.2
  let f ← S12.mulK k st.1 h.1.1
  S12.mulK k f h.1.2

/-! ### `millerLoop` on precomputed coefficients is the loop of the pairing -/

theorem bind_eq_ok {α β : Type} {m : Res α} {f : α → Res β} {y : β} (h : (m >>= f) = .ok y) : ∃ a, m = .ok a ∧ f a = .ok y := by
  cases m with
  | ok a => exact ⟨a, rfl, h⟩
  | _ => cases h

theorem preAdd_ok {Q : R2 × R2} {st st' : List R6 × T3} (h : preAdd Q st = .ok st') : ∃ c, st'.1 = st.1 ++ [c] ∧
    ∀ P : ℕ × ℕ, pointAddLineEval st.2.x st.2.y st.2.z Q.1 Q.2 P.1 P.2 = .ok ⟨lineAt c P, st'.2.x, st'.2.y, st'.2.z⟩ := by
  obtain ⟨e, h1, h2⟩ := bind_eq_ok h
  cases h2
  refine ⟨e.l, rfl, fun P => ?_⟩
  unfold pointAddLineEval
  rw [h1, Res.bind_ok]; rfl

theorem dblEval_ok {g : Cfg} {T : T3} {e : LineR} (h : pointDblLineEvalWithoutP g.b82 g.binv T.x T.y T.z = .ok e) (P : ℕ × ℕ) :
    pointDblLineEval g.b82 g.binv T.x T.y T.z P.1 P.2 = .ok ⟨lineAt e.l P, e.x, e.y, e.z⟩ := by
  unfold pointDblLineEval
  rw [h, Res.bind_ok]; rfl

theorem stepDbl_ok {g : Cfg} {T : T3} {e : LineR} (h : pointDblLineEvalWithoutP g.b82 g.binv T.x T.y T.z = .ok e) (k : Bool)
    (P : ℕ × ℕ) (f : R12) : stepDbl k g P (f, T) = (S12.squareK k f >>= fun f =>
      .ok (S12.mul024 f (lineAt e.l P), ⟨e.x, e.y, e.z⟩)) := by
  unfold stepDbl
  rw [dblEval_ok h P, Res.bind_ok]; rfl

theorem preDigit_ok {Q : R2 × R2} {s : ℤ} {st st' : List R6 × T3} (h : preDigit Q s st = .ok st') :
    ∃ new, st'.1 = st.1 ++ new ∧ ∀ P f rest, mlDigit P s (f, new ++ rest) =
      (stepDigit Q P s (f, st.2) >>= fun t => .ok (t.1, rest)) ∧
      ∀ t, stepDigit Q P s (f, st.2) = .ok t → t.2 = st'.2 := by
  have key : ∀ {Q : R2 × R2}, preAdd Q st = .ok st' → s ≠ 0 → ∃ new, st'.1 = st.1 ++ new ∧ ∀ P f rest,
      mlDigit P s (f, new ++ rest) = (stepAdd Q P (f, st.2) >>= fun t => .ok (t.1, rest)) ∧
      ∀ t, stepAdd Q P (f, st.2) = .ok t → t.2 = st'.2 := by
    intro Q h hs
    obtain ⟨c, h1, h2⟩ := preAdd_ok h
    refine ⟨[c], h1, fun P f rest => ?_⟩
    have e : stepAdd Q P (f, st.2) = .ok (S12.mul024 f (lineAt c P), st'.2) := by
      unfold stepAdd
      rw [h2 P, Res.bind_ok]; rfl
    rw [e, Res.bind_ok]
    refine ⟨?_, fun t ht => by cases ht; rfl⟩
    unfold mlDigit
    rw [if_pos hs]; rfl
  unfold preDigit at h
  unfold stepDigit
  by_cases h1 : s > 0
  · simp only [if_pos h1] at h ⊢
    exact key h (by omega)
  · simp only [if_neg h1] at h ⊢
    by_cases h2 : s < 0
    · simp only [if_pos h2] at h ⊢
      exact key h (by omega)
    · simp only [if_neg h2] at h ⊢
      cases h
      refine ⟨[], (List.append_nil _).symm, fun P f rest => ⟨?_, fun t ht => by cases ht; rfl⟩⟩
      unfold mlDigit
      rw [if_neg (by omega)]; rfl

theorem preLoop_ok {g : Cfg} {Q : R2 × R2} : ∀ (tbl : List ℤ) {st st' : List R6 × T3}, preLoop g Q tbl st = .ok st' →
    ∃ new, st'.1 = st.1 ++ new ∧ ∀ k P f rest, mlLoop k P tbl (f, new ++ rest) =
      (millerLoop k g Q P tbl (f, st.2) >>= fun t => .ok (t.1, rest)) ∧
      ∀ t, millerLoop k g Q P tbl (f, st.2) = .ok t → t.2 = st'.2
  | [], st, st', h => by
    cases h
    exact ⟨[], (List.append_nil _).symm, fun k P f rest => ⟨rfl, fun t ht => by cases ht; rfl⟩⟩
  | s :: tbl, st, st', h => by
    unfold preLoop at h
    obtain ⟨e, h1, h⟩ := bind_eq_ok h
    obtain ⟨st1, h2, h3⟩ := bind_eq_ok h
    obtain ⟨n1, a1, b1⟩ := preDigit_ok h2
    obtain ⟨n2, a2, b2⟩ := preLoop_ok tbl h3
    refine ⟨e.l :: (n1 ++ n2), by rw [a2, a1]; simp, fun k P f rest => ?_⟩
    have hd : stepDbl k g P (f, st.2) = (S12.squareK k f >>= fun f =>
        .ok (S12.mul024 f (lineAt e.l P), ⟨e.x, e.y, e.z⟩)) := stepDbl_ok h1 k P f
    unfold mlLoop millerLoop
    rw [hd]
    dsimp only [next, List.cons_append]
    rw [Res.bind_ok]
    cases hf : S12.squareK k f with
    | ok f1 =>
      simp only [Res.bind_ok]
      rw [List.append_assoc, (b1 P _ _).1]
      have hp := (b1 P (S12.mul024 f1 (lineAt e.l P)) []).2
      dsimp only at hp ⊢
      cases hg : stepDigit Q P s (S12.mul024 f1 (lineAt e.l P), ⟨e.x, e.y, e.z⟩) with
      | ok t =>
        simp only [Res.bind_ok]
        rw [show t = (t.1, st1.2) from Prod.ext rfl (hp t hg)]
        exact b2 k P t.1 rest
      | _ => exact ⟨rfl, fun t ht => by cases ht⟩
    | _ => exact ⟨rfl, fun t ht => by cases ht⟩

theorem start_ok {g : Cfg} {Q : R2 × R2} {d : LineR} (h1 : pointDblLineEvalWithoutP g.b82 g.binv Q.1 Q.2 ⟨montR, 0⟩ = .ok d)
    {c1 : R6} {T : T3} {P : ℕ × ℕ} (h2 : pointAddLineEval d.x d.y d.z Q.1 Q.2 P.1 P.2 = .ok ⟨lineAt c1 P, T.x, T.y, T.z⟩) :
    start g Q P = .ok (S12.mul024_024 (lineAt d.l P) (lineAt c1 P), T) := by
  unfold start
  rw [show pointDblLineEval g.b82 g.binv Q.1 Q.2 ⟨montR, 0⟩ P.1 P.2 = .ok ⟨lineAt d.l P, d.x, d.y, d.z⟩ from
    dblEval_ok (T := ⟨Q.1, Q.2, ⟨montR, 0⟩⟩) h1 P, Res.bind_ok]
  dsimp only
  rw [h2, Res.bind_ok]; rfl

theorem finish_ok {Q : R2 × R2} {c3 c4 : R6} {T2 T3' T4 : T3} {P : ℕ × ℕ}
    (h3 : pointAddLineEval T2.x T2.y T2.z (frobTwist1 Q).1 (frobTwist1 Q).2 P.1 P.2 = .ok ⟨lineAt c3 P, T3'.x, T3'.y, T3'.z⟩)
    (h4 : pointAddLineEval T3'.x T3'.y T3'.z (frobTwist2 Q).1 (S2.neg (frobTwist2 Q).2) P.1 P.2 =
      .ok ⟨lineAt c4 P, T4.x, T4.y, T4.z⟩) (k : Bool) (f : R12) :
    finish k Q P (f, T2) = S12.mulK k f (S12.mul024_024 (lineAt c3 P) (lineAt c4 P)) := by
  unfold finish
  dsimp only
  rw [h3, Res.bind_ok]
  dsimp only
  rw [h4, Res.bind_ok]

theorem millerPre_split (k : Bool) (P : ℕ × ℕ) (d c1 : R6) (cs : List R6) :
    millerPre k (d :: c1 :: cs) P = (mlLoop k P (siTbl.drop 2) (S12.mul024_024 (lineAt d P) (lineAt c1 P), cs) >>= fun st => do
      let d ← next st.2
      let e ← next d.2
      S12.mulK k st.1 (S12.mul024_024 (lineAt d.1 P) (lineAt e.1 P))) := by
  unfold millerPre next
  rw [Res.bind_ok, Res.bind_ok]

theorem loop_end {k : Bool} {Q : R2 × R2} {P : ℕ × ℕ} {m : Res (R12 × T3)} {c3 c4 : R6} {T2 : T3}
    (h : ∀ f, finish k Q P (f, T2) = S12.mulK k f (S12.mul024_024 (lineAt c3 P) (lineAt c4 P)))
    (hm : ∀ t, m = .ok t → t.2 = T2) :
    ((m >>= fun t => Res.ok (t.1, [c3, c4])) >>= fun st => do
      let d ← next st.2
      let e ← next d.2
      S12.mulK k st.1 (S12.mul024_024 (lineAt d.1 P) (lineAt e.1 P))) = (m >>= fun t => finish k Q P t) := by
  cases m with
  | ok t =>
    rw [Res.bind_ok, Res.bind_ok, Res.bind_ok]
    unfold next
    rw [Res.bind_ok, Res.bind_ok, ← h, ← hm t rfl]
  | _ => rfl

theorem preAff_ok {g : Cfg} {Q : R2 × R2} {cs : List R6} (h : preAff g Q = .ok cs) (k : Bool) (P : ℕ × ℕ) :
    millerPre k cs P = miller k g Q P := by
  unfold preAff at h
  obtain ⟨d, h1, h⟩ := bind_eq_ok h
  obtain ⟨st1, h2, h⟩ := bind_eq_ok h
  obtain ⟨st2, h3, h⟩ := bind_eq_ok h
  obtain ⟨st3, h4, h⟩ := bind_eq_ok h
  obtain ⟨st4, h5, h⟩ := bind_eq_ok h
  cases h
  obtain ⟨c1, a1, b1⟩ := preAdd_ok h2
  obtain ⟨n, a2, b2⟩ := preLoop_ok _ h3
  obtain ⟨c3, a3, b3⟩ := preAdd_ok h4
  obtain ⟨c4, a4, b4⟩ := preAdd_ok h5
  have e : st4.1 = d.l :: c1 :: (n ++ [c3, c4]) := by rw [a4, a3, a2, a1]; simp
  obtain ⟨l1, l2⟩ := b2 k P (S12.mul024_024 (lineAt d.l P) (lineAt c1 P)) [c3, c4]
  rw [e, millerPre_split, l1, loop_end (finish_ok (b3 P) (b4 P) k) l2]
  unfold miller
  rw [start_ok h1 (b1 P), Res.bind_ok]

end Verif.Snark
