import Verif.Snark.Comp
import Verif.Snark.PairRun

/-!
A concrete run of `millerLoop2` of the SNARK build, evaluated as in MillerRun.lean.
-/

namespace Verif.Snark
namespace Fast

structure St2 where
  f : R12
  t1 : T3
  t2 : T3

structure St2C (st : St2) : Prop where
  f : st.f.SCan
  t1 : T3C st.t1
  t2 : T3C st.t2

def str3 {α : Type} (x : T3) (f : T3 → α) : α := str2 x.x fun a => str2 x.y fun b => str2 x.z fun c => f ⟨a, b, c⟩
theorem str3_eq {α : Type} (x : T3) (f : T3 → α) : str3 x f = f x := by unfold str3; simp only [str2_eq]
def strT {α : Type} (x : St2) (f : St2 → α) : α := str12 x.f fun a => str3 x.t1 fun b => str3 x.t2 fun c => f ⟨a, b, c⟩
theorem strT_eq {α : Type} (x : St2) (f : St2 → α) : strT x f = f x := by unfold strT; simp only [str12_eq, str3_eq]

/-- both lines multiplied into f -/
def line2 (f : R12) (l1 l2 : LineR) : Res St2 := do
  let f ← mulK true f (mul (line l1.l) (line l2.l))
  strT ⟨f, ⟨l1.x, l1.y, l1.z⟩, ⟨l2.x, l2.y, l2.z⟩⟩ fun st => pure st
def dbl2 (bt : R2) (P1 P2 : ℕ × ℕ) (st : St2) : Res St2 := do
  let f ← square st.f
  line2 f (dbl bt P1 st.t1) (dbl bt P2 st.t2)
def digit2 (Q1 Q2 : R2 × R2) (P1 P2 : ℕ × ℕ) (s : ℤ) (st : St2) : Res St2 :=
  if s > 0 then line2 st.f (add P1 Q1 st.t1) (add P2 Q2 st.t2)
  else if s < 0 then line2 st.f (add P1 (Q1.1, S2.neg Q1.2) st.t1) (add P2 (Q2.1, S2.neg Q2.2) st.t2) else .ok st
def loop2 (bt : R2) (Q1 Q2 : R2 × R2) (P1 P2 : ℕ × ℕ) : List ℤ → St2 → Res St2
  | [], st => .ok st
  | s :: t, st => do
    let st ← dbl2 bt P1 P2 st
    let st ← digit2 Q1 Q2 P1 P2 s st
    loop2 bt Q1 Q2 P1 P2 t st
def start2 (bt : R2) (Q1 Q2 : R2 × R2) (P1 P2 : ℕ × ℕ) : Res St2 :=
  let d1 := dbl bt P1 ⟨Q1.1, Q1.2, ⟨montR, 0⟩⟩
  let d2 := dbl bt P2 ⟨Q2.1, Q2.2, ⟨montR, 0⟩⟩
  let e1 := add P1 Q1 ⟨d1.x, d1.y, d1.z⟩
  let e2 := add P2 Q2 ⟨d2.x, d2.y, d2.z⟩
  str12 (mul (line d1.l) (line e1.l)) fun f1 => str12 (mul (line d2.l) (line e2.l)) fun f2 => do
  let f ← mulK true f1 f2
  strT ⟨f, ⟨e1.x, e1.y, e1.z⟩, ⟨e2.x, e2.y, e2.z⟩⟩ fun st => pure st
def finish2 (Q1 Q2 : R2 × R2) (P1 P2 : ℕ × ℕ) (st : St2) : Res R12 :=
  let R1 := frobTwist1 Q1
  let R2 := frobTwist1 Q2
  let S1 := frobTwist1 R1
  let S2' := frobTwist1 R2
  let d1 := add P1 R1 st.t1
  let d2 := add P2 R2 st.t2
  let e1 := add P1 (S1.1, S2.neg S1.2) ⟨d1.x, d1.y, d1.z⟩
  let e2 := add P2 (S2'.1, S2.neg S2'.2) ⟨d2.x, d2.y, d2.z⟩
  str12 (mul (line d1.l) (line e1.l)) fun f1 => str12 (mul (line d2.l) (line e2.l)) fun f2 => do
  let f ← mulK true st.f f1
  str12 f fun f => mulK true f f2
def miller2 (bt : R2) (Q1 Q2 : R2 × R2) (P1 P2 : ℕ × ℕ) : Res R12 := do
  let st ← start2 bt Q1 Q2 P1 P2
  let st ← loop2 bt Q1 Q2 P1 P2 (siTbl.drop 2) st
  finish2 Q1 Q2 P1 P2 st
def finalExp (f : R12) : Res R12 :=
  str12 f fun f => do
  let f ← mapToCyclo true f
  str12 f fun f => if ¬ f.SCan then .throw else hardPart f
def optAte2 (bt : R2) (Q1 Q2 : R2 × R2) (P1 P2 : ℕ × ℕ) : Res R12 := do
  let f ← miller2 bt Q1 Q2 P1 P2
  finalExp f

variable {c : Cfg} {bt : R2} {P P1 P2 : ℕ × ℕ} {Q Q1 Q2 : R2 × R2}

theorem pdbl (hb : c.binv.SCan) (hbt : V2 (beta c.b82 c.binv) bt) (hx : P.1 < p) (hy : P.2 < p) {T : T3} (hT : T3C T) :
    ∃ e, pointDblLineEvalWithoutP c.b82 c.binv T.x T.y T.z = .ok e ∧ lineAt e.l P = (dbl bt P T).l ∧
      e.x = (dbl bt P T).x ∧ e.y = (dbl bt P T).y ∧ e.z = (dbl bt P T).z ∧ LC (dbl bt P T) := by
  obtain ⟨h, k⟩ := dbl_eq hb hbt hx hy hT
  generalize dbl bt P T = d at h k ⊢
  unfold pointDblLineEval at h
  obtain ⟨e, h1, h2⟩ := bind_eq_ok h
  cases h2
  exact ⟨e, h1, rfl, rfl, rfl, rfl, k⟩

theorem padd (hx : P.1 < p) (hy : P.2 < p) (h1 : Q.1.SCan) (h2 : Q.2.SCan) {T : T3} (hT : T3C T) :
    ∃ l, (∀ acc, preAdd Q (acc, T) = .ok (acc ++ [l], ⟨(add P Q T).x, (add P Q T).y, (add P Q T).z⟩)) ∧
      lineAt l P = (add P Q T).l ∧ LC (add P Q T) := by
  obtain ⟨h, k⟩ := add_eq hx hy hT h1 h2
  generalize add P Q T = d at h k ⊢
  unfold pointAddLineEval at h
  obtain ⟨e, h1, h2⟩ := bind_eq_ok h
  cases h2
  refine ⟨e.l, fun acc => ?_, rfl, k⟩
  unfold preAdd
  rw [h1, Res.bind_ok]; rfl

theorem line2_sim {f : R12} (hf : f.SCan) {l1 l2 : LineR} (k1 : LC l1) (k2 : LC l2) {st : St2} (h : line2 f l1 l2 = .ok st)
    {c1 c2 : R6} (e1 : lineAt c1 P1 = l1.l) (e2 : lineAt c2 P2 = l2.l) :
    (∀ r1 r2, ml2Line true P1 P2 (f, c1 :: r1, c2 :: r2) = .ok (st.f, r1, r2)) ∧ st.t1 = ⟨l1.x, l1.y, l1.z⟩ ∧
      st.t2 = ⟨l2.x, l2.y, l2.z⟩ ∧ St2C st := by
  unfold line2 at h
  obtain ⟨g, h1, h⟩ := bind_eq_ok h
  rw [strT_eq] at h
  cases h
  refine ⟨fun r1 r2 => ?_, rfl, rfl, mulK_can h1, k1.t, k2.t⟩
  unfold ml2Line
  dsimp only [next]
  rw [Res.bind_ok, Res.bind_ok]
  dsimp only
  rw [e1, e2, mul024_024_eq k1.l k2.l, mulK_eq hf (mul_can _ _), h1, Res.bind_ok]; rfl

theorem digit2_sim (hx1 : P1.1 < p) (hy1 : P1.2 < p) (hx2 : P2.1 < p) (hy2 : P2.2 < p) (q1 : Q1.1.SCan) (q2 : Q1.2.SCan)
    (q3 : Q2.1.SCan) (q4 : Q2.2.SCan) (s : ℤ) {st st' : St2} (hst : St2C st) (h : digit2 Q1 Q2 P1 P2 s st = .ok st') :
    St2C st' ∧ ∃ n1 n2, (∀ acc, preDigit Q1 s (acc, st.t1) = .ok (acc ++ n1, st'.t1)) ∧
      (∀ acc, preDigit Q2 s (acc, st.t2) = .ok (acc ++ n2, st'.t2)) ∧
      ∀ r1 r2, ml2Digit true P1 P2 s (st.f, n1 ++ r1, n2 ++ r2) = .ok (st'.f, r1, r2) := by
  have key : ∀ {A1 A2 : R2 × R2}, A1.1.SCan → A1.2.SCan → A2.1.SCan → A2.2.SCan →
      line2 st.f (add P1 A1 st.t1) (add P2 A2 st.t2) = .ok st' → St2C st' ∧ ∃ n1 n2,
      (∀ acc, preAdd A1 (acc, st.t1) = .ok (acc ++ n1, st'.t1)) ∧ (∀ acc, preAdd A2 (acc, st.t2) = .ok (acc ++ n2, st'.t2)) ∧
      ∀ r1 r2, ml2Line true P1 P2 (st.f, n1 ++ r1, n2 ++ r2) = .ok (st'.f, r1, r2) := by
    intro A1 A2 a1 a2 a3 a4 h
    obtain ⟨c1, u1, v1, w1⟩ := padd hx1 hy1 a1 a2 hst.t1
    obtain ⟨c2, u2, v2, w2⟩ := padd hx2 hy2 a3 a4 hst.t2
    obtain ⟨m1, m2, m3, m4⟩ := line2_sim hst.f w1 w2 h v1 v2
    refine ⟨m4, [c1], [c2], fun acc => ?_, fun acc => ?_, m1⟩
    · rw [u1, m2]
    · rw [u2, m3]
  unfold digit2 at h
  unfold preDigit ml2Digit
  have n1 := neg_can q2
  have n2 := neg_can q4
  by_cases h1 : s > 0
  · simp only [if_pos h1, if_pos (show s ≠ 0 by omega)] at h ⊢
    exact key q1 q2 q3 q4 h
  · simp only [if_neg h1] at h ⊢
    by_cases h2 : s < 0
    · simp only [if_pos h2, if_pos (show s ≠ 0 by omega)] at h ⊢
      exact key (A1 := (Q1.1, S2.neg Q1.2)) (A2 := (Q2.1, S2.neg Q2.2)) q1 n1 q3 n2 h
    · simp only [if_neg h2, if_neg (show ¬ s ≠ 0 by omega)] at h ⊢
      cases h
      exact ⟨hst, [], [], fun acc => by rw [List.append_nil], fun acc => by rw [List.append_nil], fun r1 r2 => rfl⟩

theorem dbl2_sim (hb : c.binv.SCan) (hbt : V2 (beta c.b82 c.binv) bt) (hx1 : P1.1 < p) (hy1 : P1.2 < p) (hx2 : P2.1 < p)
    (hy2 : P2.2 < p) {st st' : St2} (hst : St2C st) (h : dbl2 bt P1 P2 st = .ok st') :
    St2C st' ∧ ∃ e1 e2 f, pointDblLineEvalWithoutP c.b82 c.binv st.t1.x st.t1.y st.t1.z = .ok e1 ∧
      pointDblLineEvalWithoutP c.b82 c.binv st.t2.x st.t2.y st.t2.z = .ok e2 ∧ st'.t1 = ⟨e1.x, e1.y, e1.z⟩ ∧
      st'.t2 = ⟨e2.x, e2.y, e2.z⟩ ∧ S12.squareK true st.f = .ok f ∧
      ∀ r1 r2, ml2Line true P1 P2 (f, e1.l :: r1, e2.l :: r2) = .ok (st'.f, r1, r2) := by
  unfold dbl2 at h
  obtain ⟨f, h1, h2⟩ := bind_eq_ok h
  obtain ⟨s1, s2⟩ := square_sim hst.f f h1
  obtain ⟨e1, u1, u2, u3, u4, u5, u6⟩ := pdbl hb hbt hx1 hy1 hst.t1
  obtain ⟨e2, v1, v2, v3, v4, v5, v6⟩ := pdbl hb hbt hx2 hy2 hst.t2
  obtain ⟨m1, m2, m3, m4⟩ := line2_sim s2 u6 v6 h2 u2 v2
  exact ⟨m4, e1, e2, f, u1, v1, by rw [m2, u3, u4, u5], by rw [m3, v3, v4, v5], s1, m1⟩

theorem loop2_sim (hb : c.binv.SCan) (hbt : V2 (beta c.b82 c.binv) bt) (hx1 : P1.1 < p) (hy1 : P1.2 < p) (hx2 : P2.1 < p)
    (hy2 : P2.2 < p) (q1 : Q1.1.SCan) (q2 : Q1.2.SCan) (q3 : Q2.1.SCan) (q4 : Q2.2.SCan) : ∀ (tbl : List ℤ) {st st' : St2},
    St2C st → loop2 bt Q1 Q2 P1 P2 tbl st = .ok st' →
    St2C st' ∧ ∃ n1 n2, (∀ acc, preLoop c Q1 tbl (acc, st.t1) = .ok (acc ++ n1, st'.t1)) ∧
      (∀ acc, preLoop c Q2 tbl (acc, st.t2) = .ok (acc ++ n2, st'.t2)) ∧
      ∀ r1 r2, ml2Loop true P1 P2 tbl (st.f, n1 ++ r1, n2 ++ r2) = .ok (st'.f, r1, r2)
  | [], st, st', hst, h => by
    cases h
    exact ⟨hst, [], [], fun acc => by rw [List.append_nil]; rfl, fun acc => by rw [List.append_nil]; rfl, fun r1 r2 => rfl⟩
  | s :: tbl, st, st', hst, h => by
    unfold loop2 at h
    obtain ⟨a, h1, h⟩ := bind_eq_ok h
    obtain ⟨b, h2, h3⟩ := bind_eq_ok h
    obtain ⟨k1, e1, e2, f, u1, u2, u3, u4, u5, u6⟩ := dbl2_sim hb hbt hx1 hy1 hx2 hy2 hst h1
    obtain ⟨k2, n1, n2, v1, v2, v3⟩ := digit2_sim hx1 hy1 hx2 hy2 q1 q2 q3 q4 s k1 h2
    obtain ⟨k3, m1, m2, w1, w2, w3⟩ := loop2_sim hb hbt hx1 hy1 hx2 hy2 q1 q2 q3 q4 tbl k2 h3
    refine ⟨k3, e1.l :: (n1 ++ m1), e2.l :: (n2 ++ m2), fun acc => ?_, fun acc => ?_, fun r1 r2 => ?_⟩
    · unfold preLoop
      rw [u1, Res.bind_ok]
      dsimp only
      rw [← u3, v1, Res.bind_ok, w1]
      simp
    · unfold preLoop
      rw [u2, Res.bind_ok]
      dsimp only
      rw [← u4, v2, Res.bind_ok, w2]
      simp
    · unfold ml2Loop
      dsimp only [List.cons_append]
      rw [u5, Res.bind_ok, u6, Res.bind_ok, List.append_assoc, List.append_assoc, v3, Res.bind_ok, w3]

/-- reads at the two ends of the vectors -/
theorem read_eq {d1 e1 d2 e2 : R6} {a1 b1 a2 b2 : R6} (k1 : a1.SCan) (k2 : b1.SCan) (k3 : a2.SCan) (k4 : b2.SCan)
    (h1 : lineAt d1 P1 = a1) (h2 : lineAt e1 P1 = b1) (h3 : lineAt d2 P2 = a2) (h4 : lineAt e2 P2 = b2) (r1 r2 : List R6) :
    ml2Read P1 P2 (d1 :: e1 :: r1, d2 :: e2 :: r2) =
      .ok ((mul (line a1) (line b1), mul (line a2) (line b2)), r1, r2) := by
  unfold ml2Read
  dsimp only [next]
  simp only [Res.bind_ok]
  rw [h1, h2, h3, h4, mul024_024_eq k1 k2, mul024_024_eq k3 k4]; rfl

theorem T3C.eta {l : LineR} (h : LC l) : T3C ⟨l.x, l.y, l.z⟩ := h.t

/-- the two coefficients before the loop -/
theorem pstart (hb : c.binv.SCan) (hbt : V2 (beta c.b82 c.binv) bt) (hx : P.1 < p) (hy : P.2 < p) (h1 : Q.1.SCan)
    (h2 : Q.2.SCan) {d e : LineR} (hd : d = dbl bt P ⟨Q.1, Q.2, ⟨montR, 0⟩⟩) (he : e = add P Q ⟨d.x, d.y, d.z⟩) :
    LC d ∧ LC e ∧ ∃ u l, pointDblLineEvalWithoutP c.b82 c.binv Q.1 Q.2 ⟨montR, 0⟩ = .ok u ∧
      preAdd Q ([u.l], ⟨u.x, u.y, u.z⟩) = .ok ([u.l, l], ⟨e.x, e.y, e.z⟩) ∧ lineAt u.l P = d.l ∧ lineAt l P = e.l := by
  obtain ⟨u, a1, a2, a3, a4, a5, a6⟩ := pdbl hb hbt hx hy (T3C.mk (T := ⟨Q.1, Q.2, ⟨montR, 0⟩⟩) h1 h2 one_can)
  rw [← hd] at a2 a3 a4 a5 a6
  obtain ⟨l, b1, b2, b3⟩ := padd hx hy h1 h2 a6.t
  rw [← he] at b1 b2 b3
  refine ⟨a6, b3, u, l, a1, ?_, a2, b2⟩
  rw [a3, a4, a5, b1]; rfl

/-- the two coefficients after the loop -/
theorem pfinish (hx : P.1 < p) (hy : P.2 < p) {A B : R2 × R2} (h1 : A.1.SCan) (h2 : A.2.SCan) (h3 : B.1.SCan) (h4 : B.2.SCan)
    {T : T3} (hT : T3C T) {d e : LineR} (hd : d = add P A T) (he : e = add P B ⟨d.x, d.y, d.z⟩) :
    LC d ∧ LC e ∧ ∃ l m, (∀ acc, preAdd A (acc, T) = .ok (acc ++ [l], ⟨d.x, d.y, d.z⟩)) ∧
      (∀ acc, preAdd B (acc, ⟨d.x, d.y, d.z⟩) = .ok (acc ++ [m], ⟨e.x, e.y, e.z⟩)) ∧ lineAt l P = d.l ∧ lineAt m P = e.l := by
  obtain ⟨l, b1, b2, b3⟩ := padd hx hy h1 h2 hT
  rw [← hd] at b1 b2 b3
  obtain ⟨m, c1, c2, c3⟩ := padd hx hy h3 h4 b3.t
  rw [← he] at c1 c2 c3
  exact ⟨b3, c3, l, m, b1, c1, b2, c2⟩

theorem twist_eq (Q : R2 × R2) : Snark.frobTwist2 Q = frobTwist1 (frobTwist1 Q) := by
  unfold Snark.frobTwist2
  rw [frobTwist1_eq, frobTwist1_eq]

theorem preAff_eq {u : LineR} {l m1 m2 : R6} {T1 T2 T3' T4 : T3} {n : List R6}
    (h1 : pointDblLineEvalWithoutP c.b82 c.binv Q.1 Q.2 ⟨montR, 0⟩ = .ok u)
    (h2 : preAdd Q ([u.l], ⟨u.x, u.y, u.z⟩) = .ok ([u.l, l], T1))
    (h3 : ∀ acc, preLoop c Q (siTbl.drop 2) (acc, T1) = .ok (acc ++ n, T2))
    (h4 : ∀ acc, preAdd (frobTwist1 Q) (acc, T2) = .ok (acc ++ [m1], T3'))
    (h5 : ∀ acc, preAdd ((frobTwist1 (frobTwist1 Q)).1, S2.neg (frobTwist1 (frobTwist1 Q)).2) (acc, T3') =
      .ok (acc ++ [m2], T4)) : preAff c Q = .ok (u.l :: l :: (n ++ [m1, m2])) := by
  unfold preAff
  rw [h1, Res.bind_ok]
  dsimp only
  rw [h2, Res.bind_ok, h3, Res.bind_ok, frobTwist1_eq, twist_eq, h4, Res.bind_ok, h5, Res.bind_ok]
  simp only [List.append_assoc, List.cons_append, List.nil_append]; rfl

theorem miller2_sim (hb : c.binv.SCan) (hbt : V2 (beta c.b82 c.binv) bt) (hx1 : P1.1 < p) (hy1 : P1.2 < p) (hx2 : P2.1 < p)
    (hy2 : P2.2 < p) (q1 : Q1.1.SCan) (q2 : Q1.2.SCan) (q3 : Q2.1.SCan) (q4 : Q2.2.SCan) {y : R12}
    (h : miller2 bt Q1 Q2 P1 P2 = .ok y) : ∃ c1 c2, preAff c Q1 = .ok c1 ∧ preAff c Q2 = .ok c2 ∧
      millerPre2 true c1 P1 c2 P2 = .ok y ∧ y.SCan := by
  unfold miller2 at h
  obtain ⟨st, s1, h⟩ := bind_eq_ok h
  obtain ⟨st', s2, s3⟩ := bind_eq_ok h
  unfold start2 at s1
  unfold finish2 at s3
  dsimp only at s1 s3
  obtain ⟨w1, w2⟩ := frobTwist1_can q1 q2
  obtain ⟨w3, w4⟩ := frobTwist1_can w1 w2
  obtain ⟨x1, x2⟩ := frobTwist1_can q3 q4
  obtain ⟨x3, x4⟩ := frobTwist1_can x1 x2
  have ps1 := pstart hb hbt hx1 hy1 q1 q2 rfl rfl
  have ps2 := pstart hb hbt hx2 hy2 q3 q4 rfl rfl
  generalize dbl bt P1 ⟨Q1.1, Q1.2, ⟨montR, 0⟩⟩ = d1 at s1 ps1
  generalize dbl bt P2 ⟨Q2.1, Q2.2, ⟨montR, 0⟩⟩ = d2 at s1 ps2
  generalize add P1 Q1 ⟨d1.x, d1.y, d1.z⟩ = e1 at s1 ps1
  generalize add P2 Q2 ⟨d2.x, d2.y, d2.z⟩ = e2 at s1 ps2
  obtain ⟨l1, m1, u1, v1, z1, z2, z3, z4⟩ := ps1
  obtain ⟨l2, m2, u2, v2, z5, z6, z7, z8⟩ := ps2
  rw [str12_eq, str12_eq] at s1
  obtain ⟨f, sf, s1'⟩ := bind_eq_ok s1
  rw [strT_eq] at s1'
  cases s1'
  obtain ⟨k, n1, n2, a1, a2, a3⟩ := loop2_sim hb hbt hx1 hy1 hx2 hy2 q1 q2 q3 q4 _ ⟨mulK_can sf, m1.t, m2.t⟩ s2
  dsimp only at a1 a2 a3
  have pf1 := pfinish (B := ((frobTwist1 (frobTwist1 Q1)).1, S2.neg (frobTwist1 (frobTwist1 Q1)).2)) hx1 hy1 w1 w2 w3 (neg_can w4) k.t1 rfl rfl
  have pf2 := pfinish (B := ((frobTwist1 (frobTwist1 Q2)).1, S2.neg (frobTwist1 (frobTwist1 Q2)).2)) hx2 hy2 x1 x2 x3 (neg_can x4) k.t2 rfl rfl
  generalize add P1 (frobTwist1 Q1) st'.t1 = d1' at s3 pf1
  generalize add P2 (frobTwist1 Q2) st'.t2 = d2' at s3 pf2
  generalize add P1 ((frobTwist1 (frobTwist1 Q1)).1, S2.neg (frobTwist1 (frobTwist1 Q1)).2) ⟨d1'.x, d1'.y, d1'.z⟩ = e1' at s3 pf1
  generalize add P2 ((frobTwist1 (frobTwist1 Q2)).1, S2.neg (frobTwist1 (frobTwist1 Q2)).2) ⟨d2'.x, d2'.y, d2'.z⟩ = e2' at s3 pf2
  obtain ⟨l3, m3, u3, v3, y1, y2, y3, y4⟩ := pf1
  obtain ⟨l4, m4, u4, v4, y5, y6, y7, y8⟩ := pf2
  rw [str12_eq, str12_eq] at s3
  obtain ⟨f', s3, s4⟩ := bind_eq_ok s3
  rw [str12_eq] at s4
  refine ⟨_, _, preAff_eq z1 z2 a1 y1 y2, preAff_eq z5 z6 a2 y5 y6, ?_, mulK_can s4⟩
  unfold millerPre2
  rw [read_eq l1.l m1.l l2.l m2.l z3 z4 z7 z8, Res.bind_ok]
  dsimp only
  rw [mulK_eq (mul_can _ _) (mul_can _ _), sf, Res.bind_ok, a3, Res.bind_ok]
  dsimp only
  rw [read_eq l3.l m3.l l4.l m4.l y3 y4 y7 y8, Res.bind_ok]
  dsimp only
  rw [mulK_eq k.f (mul_can _ _), s3, Res.bind_ok, mulK_eq (mulK_can s3) (mul_can _ _), s4]

theorem finalExp_sim (f : R12) : Sim R12.SCan (finalExp f) (S12.finalExp true f) := by
  unfold finalExp S12.finalExp
  rw [str12_eq, ← mapToCyclo_eq]
  refine Sim.bind (P := fun _ => True) (fun y h => ⟨h, trivial⟩) fun g _ => ?_
  rw [str12_eq]
  split
  · intro y h; cases h
  · rename_i hg
    rw [not_not] at hg
    obtain ⟨e, h⟩ := agree_hardPart hg
    rw [e]; exact fun y hy => ⟨hy, h y hy⟩

end Fast

namespace Pr

/-- the checked run of `millerLoop2` on the generators (both pairs) ends, with a value different from 1 -/
theorem run2_gen (c : Curve) : okAnd (Fast.optAte2 (bufB c) (bufQ c) (bufQ c) (bufP c) (bufP c))
    (fun y => decide (y.a.a.a ≠ montR)) = true := by
  cases c <;> decide +kernel

theorem run2_model (c : Curve) {g : Cfg} (hg : Fit c g) : ∃ cs y, preAff g (bufQ c) = .ok cs ∧
    (millerPre2 true cs (bufP c) cs (bufP c) >>= S12.finalExp true) = .ok y ∧ y.a.a.a ≠ montR := by
  obtain ⟨y, e, h⟩ := okAnd_iff (run2_gen c)
  have hb : (bufB c).SCan := (bufB_fit c).can
  have hf : V2 (beta g.b82 g.binv) (bufB c) :=
    ⟨hb, mul_left_cancel₀ xi_ne ((bufB_fit c).fac.trans hg.fac.symm)⟩
  unfold Fast.optAte2 at e
  obtain ⟨f, e1, e2⟩ := bind_eq_ok e
  obtain ⟨c1, c2, h1, h2, h3, h4⟩ := Fast.miller2_sim hg.can hf (bufP_lt c).1 (bufP_lt c).2 (bufP_lt c).1 (bufP_lt c).2
    (bufQ_can c).1 (bufQ_can c).2 (bufQ_can c).1 (bufQ_can c).2 e1
  rw [h1] at h2
  cases h2
  exact ⟨c1, y, h1, by rw [h3, Res.bind_ok]; exact (Fast.finalExp_sim f y e2).1, of_decide_eq_true h⟩

end Pr
end Verif.Snark
