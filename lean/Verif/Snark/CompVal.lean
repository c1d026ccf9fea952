import Verif.Snark.Comp

/-! SNARK build: values of `millerLoop` and `millerLoop2` on precomputed coefficients. -/

namespace Verif.Snark
open Verif.Hom Verif.Ec
namespace Pr
open Cocycle Abs Abs.Setup
open Pairing (conds endVal)

variable {c : Curve} {S : Setup (ZMod p) G2 G12}

/-- the coefficients of a line whose value at P is, up to the final exponentiation, v -/
def Ln (S : Setup (ZMod p) G2 G12) (P : ZMod p × ZMod p) (l : R6) (v : G12ˣ) : Prop :=
  ∀ b, VP P b → (lineAt l b).SCan ∧ S.FE (lineAt l b).sden.line = (v : G12)

/-- reading coefficients along the digits takes the value u to u' -/
inductive Lns (S : Setup (ZMod p) G2 G12) (P : ZMod p × ZMod p) : List ℤ → List R6 → G12ˣ → G12ˣ → List R6 → Prop
  | nil (cs u) : Lns S P [] cs u u cs
  | zero {t c cs u v u' rest} : Ln S P c v → Lns S P t cs (u * u * v) u' rest → Lns S P (0 :: t) (c :: cs) u u' rest
  | digit {s t c c' cs u v v' u' rest} : s ≠ 0 → Ln S P c v → Ln S P c' v' → Lns S P t cs (u * u * v * v') u' rest →
    Lns S P (s :: t) (c :: c' :: cs) u u' rest

/-- a complete vector of coefficients with value v -/
structure Vec (S : Setup (ZMod p) G2 G12) (P : ZMod p × ZMod p) (cs : List R6) (v : G12ˣ) : Prop where
  ex : ∃ d e cs0 d' e' rest v1 v2 v3 v4 u, cs = d :: e :: cs0 ∧ Ln S P d v1 ∧ Ln S P e v2 ∧
    Lns S P (siTbl.drop 2) cs0 (v1 * v2) u (d' :: e' :: rest) ∧ Ln S P d' v3 ∧ Ln S P e' v4 ∧ v = u * (v3 * v4)

theorem pair_val {P P' : ZMod p × ZMod p} {l l' : R6} {v v' : G12ˣ} (h : Ln S P l v) (h' : Ln S P' l' v') {b b' : ℕ × ℕ}
    (hb : VP P b) (hb' : VP P' b') : (S12.mul024_024 (lineAt l b) (lineAt l' b')).SCan ∧
      S.FE (S12.mul024_024 (lineAt l b) (lineAt l' b')).sden = ((v * v' : G12ˣ) : G12) := by
  obtain ⟨a1, a2⟩ := h b hb
  obtain ⟨b1, b2⟩ := h' b' hb'
  obtain ⟨k1, k2⟩ := S12.mul024_024_den a1 b1
  exact ⟨k1, by rw [k2, map_mul, a2, b2, Units.val_mul]⟩

/-- the accumulator has value u -/
def Acc (S : Setup (ZMod p) G2 G12) (f : R12) (u : G12ˣ) : Prop := f.SCan ∧ S.FE f.sden = (u : G12)

theorem acc_mul {f g : R12} {u v : G12ˣ} (hf : Acc S f u) (hg : Acc S g v) : Spec (fun k => S12.mulK k f g) (fun y => Acc S y (u * v)) :=
  (V12.mulK ⟨hf.1, rfl⟩ ⟨hg.1, rfl⟩).mono fun y hy => ⟨hy.1, by rw [hy.2, map_mul, hf.2, hg.2, Units.val_mul]⟩
theorem acc_sq {f : R12} {u : G12ˣ} (hf : Acc S f u) : Spec (fun k => S12.squareK k f) (fun y => Acc S y (u * u)) :=
  (V12.squareK ⟨hf.1, rfl⟩).mono fun y hy => ⟨hy.1, by rw [hy.2, map_mul, hf.2, Units.val_mul]⟩

theorem next_spec (l : R6) (cs : List R6) : Spec (fun _ => next (l :: cs)) (fun y => y = (l, cs)) :=
  Spec.const ⟨_, rfl, rfl⟩

variable {P1 P2 : ZMod p × ZMod p} {b1 b2 : ℕ × ℕ}

theorem ml2Line_val (hb1 : VP P1 b1) (hb2 : VP P2 b2) {l1 l2 : R6} {cs1 cs2 : List R6} {v1 v2 u : G12ˣ} (h1 : Ln S P1 l1 v1)
    (h2 : Ln S P2 l2 v2) {f : R12} (hf : Acc S f u) :
    Spec (fun k => ml2Line k b1 b2 (f, l1 :: cs1, l2 :: cs2)) (fun st => Acc S st.1 (u * (v1 * v2)) ∧ st.2 = (cs1, cs2)) := by
  unfold ml2Line
  refine Spec.bind (next_spec l1 cs1) fun x hx => ?_
  subst hx
  refine Spec.bind (next_spec l2 cs2) fun x hx => ?_
  subst hx
  exact Spec.bind (acc_mul hf (pair_val h1 h2 hb1 hb2)) fun y hy => Spec.pure ⟨hy, rfl⟩

theorem ml2Digit_ne {s : ℤ} (hs : s ≠ 0) {st : R12 × List R6 × List R6} :
    (fun k => ml2Digit k b1 b2 s st) = fun k => ml2Line k b1 b2 st := by
  funext k; unfold ml2Digit; rw [if_pos hs]

theorem comm4 (u1 u2 v1 v2 : G12ˣ) : u1 * u2 * (u1 * u2) * (v1 * v2) = u1 * u1 * v1 * (u2 * u2 * v2) := by
  rw [mul_mul_mul_comm u1 u2, mul_mul_mul_comm]

theorem comm5 (u1 u2 v1 v2 : G12ˣ) : u1 * u2 * (v1 * v2) = u1 * v1 * (u2 * v2) := by
  rw [mul_mul_mul_comm u1 u2]

theorem comm6 (u1 u2 x1 x2 z1 z2 : G12ˣ) : u1 * u2 * (x1 * x2) * (z1 * z2) = u1 * (x1 * x2) * (u2 * (z1 * z2)) := by
  rw [mul_assoc (u1 * u2), comm5]

theorem ml2Loop_val (hb1 : VP P1 b1) (hb2 : VP P2 b2) {tbl : List ℤ} {cs1 rest1 : List R6} {u1 w1 : G12ˣ}
    (h1 : Lns S P1 tbl cs1 u1 w1 rest1) : ∀ {cs2 rest2 : List R6} {u2 w2 : G12ˣ} {f : R12}, Lns S P2 tbl cs2 u2 w2 rest2 →
    Acc S f (u1 * u2) →
    Spec (fun k => ml2Loop k b1 b2 tbl (f, cs1, cs2)) (fun st => Acc S st.1 (w1 * w2) ∧ st.2 = (rest1, rest2)) := by
  induction h1 with
  | nil cs u =>
    intro cs2 rest2 u2 w2 f h2 hf
    cases h2
    exact Spec.pure ⟨hf, rfl⟩
  | zero hc ht ih =>
    intro cs2 rest2 u2 w2 f h2 hf
    cases h2 with
    | digit hs => exact absurd rfl hs
    | zero hc2 ht2 =>
      unfold ml2Loop
      refine Spec.bind (acc_sq hf) fun y hy => ?_
      refine Spec.bind (ml2Line_val hb1 hb2 hc hc2 hy) fun st hst => ?_
      refine Spec.bind (P := fun a => a = st) (Spec.const ⟨st, rfl, rfl⟩) fun a ha => ?_
      subst ha
      rw [comm4] at hst
      have := ih ht2 hst.1
      rwa [← hst.2] at this
  | @digit s t c c' cs u v v' u' rest hs hc hc' ht ih =>
    intro cs2 rest2 u2 w2 f h2 hf
    cases h2 with
    | zero => exact absurd rfl hs
    | @digit _ _ d d' ds _ _ _ _ _ _ hc2 hc2' ht2 =>
      unfold ml2Loop
      refine Spec.bind (acc_sq hf) fun y hy => ?_
      refine Spec.bind (ml2Line_val hb1 hb2 hc hc2 hy) fun st hst => ?_
      rw [comm4] at hst
      obtain ⟨f', c⟩ := st
      obtain ⟨h1, h2⟩ := hst
      dsimp only at h1 h2
      subst h2
      have hd := ml2Line_val (cs1 := cs) (cs2 := ds) hb1 hb2 hc' hc2' h1
      rw [← ml2Digit_ne hs] at hd
      refine Spec.bind hd fun st hst => ?_
      have h3 := hst.1
      rw [comm5] at h3
      have := ih ht2 h3
      rwa [← hst.2] at this

theorem ml2Read_val (hb1 : VP P1 b1) (hb2 : VP P2 b2) {d1 e1 d2 e2 : R6} {r1 r2 : List R6} {x1 x2 z1 z2 : G12ˣ}
    (k1 : Ln S P1 d1 x1) (k2 : Ln S P1 e1 x2) (l1 : Ln S P2 d2 z1) (l2 : Ln S P2 e2 z2) :
    Spec (fun _ => ml2Read b1 b2 (d1 :: e1 :: r1, d2 :: e2 :: r2)) (fun h => Acc S h.1.1 (x1 * x2) ∧ Acc S h.1.2 (z1 * z2) ∧
      h.2 = (r1, r2)) :=
  Spec.const ⟨((S12.mul024_024 (lineAt d1 b1) (lineAt e1 b1), S12.mul024_024 (lineAt d2 b2) (lineAt e2 b2)), r1, r2), by
    unfold ml2Read next
    simp only [Res.bind_ok]; rfl, pair_val k1 k2 hb1 hb1, pair_val l1 l2 hb2 hb2, rfl⟩

theorem millerPre2_val (hb1 : VP P1 b1) (hb2 : VP P2 b2) {cs1 cs2 : List R6} {v1 v2 : G12ˣ} (h1 : Vec S P1 cs1 v1)
    (h2 : Vec S P2 cs2 v2) : Spec (fun k => millerPre2 k cs1 b1 cs2 b2) (fun y => Acc S y (v1 * v2)) := by
  obtain ⟨d1, e1, r1, d1', e1', s1, x1, x2, x3, x4, y1, rfl, k1, k2, k3, k4, k5, rfl⟩ := h1
  obtain ⟨d2, e2, r2, d2', e2', s2, z1, z2, z3, z4, y2, rfl, l1, l2, l3, l4, l5, rfl⟩ := h2
  unfold millerPre2
  refine Spec.bind (ml2Read_val hb1 hb2 k1 k2 l1 l2) ?_
  intro h hh
  refine Spec.bind (acc_mul hh.1 hh.2.1) ?_
  intro f hf
  rw [hh.2.2]
  refine Spec.bind (ml2Loop_val hb1 hb2 k3 l3 hf) ?_
  intro st hst
  rw [hst.2]
  refine Spec.bind (ml2Read_val hb1 hb2 k4 k5 l4 l5) ?_
  intro h' hh'
  refine Spec.bind (acc_mul hst.1 hh'.1) ?_
  intro f2 hf2
  have := acc_mul hf2 hh'.2.1
  rwa [comm6] at this

/-! ### The coefficients of `precomputeG2` -/

theorem ln_of (hS : Is c S) {P : ZMod p × ZMod p} (h : S.OnE P) {l : R6} {A B : S.E'} (ha : l.a.SCan) (hb : l.b.SCan) (hc : l.c.SLt3)
    (hl : Prop3 (l.a.sden / G2.xi, l.b.sden, l.c.sden) (lin A B)) : Ln S P l (gamma h A B) := fun b hP => by
  obtain ⟨k1, k2⟩ := line_prop3 hS ha hb hc hl hP
  exact ⟨k1, by rw [gamma_coe, ← k2, hS.FE]; rfl⟩

theorem preDbl_val (hS : Is c S) {g : Cfg} (hg : Fit c g) {T : T3} {A : S.E'} (hT : VT S T A) :
    ∃ e, pointDblLineEvalWithoutP g.b82 g.binv T.x T.y T.z = .ok e ∧ VT S ⟨e.x, e.y, e.z⟩ (A + A) ∧
      ∀ P (h : S.OnE P), Ln S P e.l (gamma h A A) := by
  obtain ⟨e, h1, ⟨a1, a2, a3⟩, ⟨b1, b2, b3⟩, h4, h5⟩ := dbl_group' hS.tw hg.can hT.x hT.y hT.z hg.fac hT.pt
  exact ⟨e, h1, ⟨b1, b2, b3, h4⟩, fun P h => ln_of hS h a1 a2 a3 h5⟩

theorem preAdd_val (hS : Is c S) {T : T3} {A : S.E'} (hT : VT S T A) {q1 q2 : G2} {Q : R2 × R2}
    (hq1 : V2 q1 Q.1) (hq2 : V2 q2 Q.2) (hQ : (curve S.tw).Nonsingular q1 q2) (hA0 : A ≠ 0)
    (hA : A ≠ .some _ _ hQ) (acc : List R6) :
    ∃ l T', preAdd Q (acc, T) = .ok (acc ++ [l], T') ∧ VT S T' (A + .some _ _ hQ) ∧
      ∀ P (h : S.OnE P), Ln S P l (gamma h A (.some _ _ hQ)) := by
  obtain ⟨s1, rfl⟩ := hq1
  obtain ⟨s2, rfl⟩ := hq2
  obtain ⟨e, h1, ⟨a1, a2, a3⟩, ⟨b1, b2, b3⟩, h4, h5⟩ := add_group' hS.tw hT.x hT.y hT.z s1 s2 hT.pt hQ hA0 hA
  refine ⟨e.l, ⟨e.x, e.y, e.z⟩, ?_, ⟨b1, b2, b3, h4⟩, fun P h => ln_of hS h a1 a2 a3.lt3 h5⟩
  unfold preAdd
  rw [h1, Res.bind_ok]; rfl

open WeierstrassCurve.Affine in
/-- one digit: no coefficient for 0, one otherwise -/
theorem preDigit_val (hS : Is c S) {q1 q2 : G2} {Q : R2 × R2} (hq1 : V2 q1 Q.1) (hq2 : V2 q2 Q.2)
    (hQ : (curve S.tw).Nonsingular q1 q2) {T : T3} {n : ℕ} (hn : 0 < n) (hT : VT S T ((2 * n) • (Point.some _ _ hQ : S.E')))
    (s : ℤ) (t : List ℤ) (hc : ∀ m ∈ conds n (s :: t), m • (Point.some _ _ hQ : S.E') ≠ 0) (acc : List R6) :
    ∃ T', VT S T' ((if s > 0 then 2 * n + 1 else if s < 0 then 2 * n - 1 else 2 * n) • (Point.some _ _ hQ : S.E')) ∧
      ((s = 0 ∧ preDigit Q s (acc, T) = .ok (acc, T')) ∨ (s ≠ 0 ∧ ∃ l, preDigit Q s (acc, T) = .ok (acc ++ [l], T') ∧
        ∀ P (h : S.OnE P), ∃ v, Ln S P l v ∧ ((2 * n) • one1 h (.some _ _ hQ)).u * v =
          ((if s > 0 then 2 * n + 1 else if s < 0 then 2 * n - 1 else 2 * n) • one1 h (.some _ _ hQ)).u)) := by
  unfold preDigit
  unfold conds at hc
  by_cases hs : s > 0
  · simp only [if_pos hs] at hc ⊢
    obtain ⟨l, T', k1, k2, k3⟩ := preAdd_val hS hT hq1 hq2 hQ (hc (2 * n) (by simp)) (ne_self' _ hn (hc (2 * n - 1) (by simp))) acc
    rw [← succ_nsmul] at k2
    refine ⟨T', k2, .inr ⟨by omega, l, k1, fun P h => ⟨_, k3 P h, ?_⟩⟩⟩
    rw [← one1_succ, add_one1_u, one1_nsmul_A]
  · simp only [if_neg hs] at hc ⊢
    by_cases hs' : s < 0
    · simp only [if_pos hs'] at hc ⊢
      obtain ⟨y, h', en, hy⟩ := neg_pt hq2 hQ
      obtain ⟨l, T', k1, k2, k3⟩ := preAdd_val hS hT (Q := (Q.1, S2.neg Q.2)) hq1 hy h' (hc (2 * n) (by simp))
        (ne_of_neg en (hc (2 * n + 1) (by simp))) acc
      rw [← en, ← sub_eq_add_neg] at k2
      refine ⟨T', ?_, .inr ⟨by omega, l, k1, fun P h => ⟨_, k3 P h, ?_⟩⟩⟩
      · rw [sub_nsmul _ (by omega), one_nsmul]; exact k2
      · rw [← one1_pred h en hn, add_one1_u, one1_nsmul_A]
    · simp only [if_neg hs'] at hc ⊢
      exact ⟨T, hT, .inl ⟨by omega, rfl⟩⟩

open WeierstrassCurve.Affine in
theorem preLoop_val (hS : Is c S) {g : Cfg} (hg : Fit c g) {q1 q2 : G2} {Q : R2 × R2}
    (hq1 : V2 q1 Q.1) (hq2 : V2 q2 Q.2) (hQ : (curve S.tw).Nonsingular q1 q2) (tbl : List ℤ) :
    ∀ (acc : List R6) (T : T3) (n : ℕ), 0 < n → VT S T (n • (Point.some _ _ hQ : S.E')) →
      (∀ m ∈ conds n tbl, m • (Point.some _ _ hQ : S.E') ≠ 0) →
      ∃ new T', preLoop g Q tbl (acc, T) = .ok (acc ++ new, T') ∧ VT S T' (endVal n tbl • (Point.some _ _ hQ : S.E')) ∧
        ∀ P (h : S.OnE P) rest, Lns S P tbl (new ++ rest) (n • one1 h (.some _ _ hQ)).u
          (endVal n tbl • one1 h (.some _ _ hQ)).u rest := by
  induction tbl with
  | nil =>
    intro acc T n _ hT _
    exact ⟨[], T, by rw [List.append_nil]; rfl, hT, fun P h rest => .nil _ _⟩
  | cons s t ih =>
    intro acc T n hn hT hc
    obtain ⟨e, h1, h2, h3⟩ := preDbl_val hS hg hT
    rw [← add_nsmul, ← two_mul] at h2
    obtain ⟨T1, k1, k2⟩ := preDigit_val hS hq1 hq2 hQ hn h2 s t hc (acc ++ [e.l])
    have hc' : ∀ m ∈ conds (if s > 0 then 2 * n + 1 else if s < 0 then 2 * n - 1 else 2 * n) t,
        m • (Point.some _ _ hQ : S.E') ≠ 0 := by
      intro m hm
      refine hc m ?_
      unfold conds
      split_ifs with h1 h2
      · rw [if_pos h1] at hm; exact List.mem_cons_of_mem _ (List.mem_cons_of_mem _ hm)
      · rw [if_neg h1, if_pos h2] at hm; exact List.mem_cons_of_mem _ (List.mem_cons_of_mem _ hm)
      · rw [if_neg h1, if_neg h2] at hm; exact hm
    have hn' : 0 < (if s > 0 then 2 * n + 1 else if s < 0 then 2 * n - 1 else 2 * n) := by split_ifs <;> omega
    have ev : endVal n (s :: t) = endVal (if s > 0 then 2 * n + 1 else if s < 0 then 2 * n - 1 else 2 * n) t := rfl
    have hu : ∀ P (h : S.OnE P), ((2 * n) • one1 h (.some _ _ hQ)).u = (n • one1 h (.some _ _ hQ)).u *
        (n • one1 h (.some _ _ hQ)).u * gamma h (n • (Point.some _ _ hQ : S.E')) (n • (Point.some _ _ hQ : S.E')) := fun P h => by
      rw [two_mul, add_nsmul, dbl_u, one1_nsmul_A]
    rcases k2 with ⟨hs, k2⟩ | ⟨hs, l, k2, k3⟩
    · obtain ⟨new, T', m1, m2, m3⟩ := ih (acc ++ [e.l]) T1 _ hn' k1 hc'
      refine ⟨e.l :: new, T', ?_, by rw [ev]; exact m2, fun P h rest => ?_⟩
      · unfold preLoop
        rw [h1, Res.bind_ok, k2, Res.bind_ok, m1, List.append_assoc]; rfl
      · rw [ev]
        have := m3 P h rest
        subst hs
        refine .zero (h3 P h) ?_
        rw [← hu]
        exact this
    · obtain ⟨new, T', m1, m2, m3⟩ := ih (acc ++ [e.l] ++ [l]) T1 _ hn' k1 hc'
      refine ⟨e.l :: l :: new, T', ?_, by rw [ev]; exact m2, fun P h rest => ?_⟩
      · unfold preLoop
        rw [h1, Res.bind_ok, k2, Res.bind_ok, m1, List.append_assoc, List.append_assoc]; rfl
      · rw [ev]
        have := m3 P h rest
        obtain ⟨v, n1, n2⟩ := k3 P h
        refine .digit hs (h3 P h) n1 ?_
        rw [← hu, n2]
        exact this

open WeierstrassCurve.Affine in
theorem preAff_val (hS : Is c S) {g : Cfg} (hg : Fit c g) {q1 q2 : G2} {Q : R2 × R2}
    (hq1 : V2 q1 Q.1) (hq2 : V2 q2 Q.2) (hQ : (curve S.tw).Nonsingular q1 q2) (hB : Tor S (.some _ _ hQ)) :
    ∃ cs, preAff g Q = .ok cs ∧ ∀ P (h : S.OnE P), Vec S P cs (ate h (.some _ _ hQ)) := by
  have h0 : (Point.some _ _ hQ : S.E') ≠ 0 := Point.some_ne_zero hQ
  have hs : endVal 3 (siTbl.drop 2) = S.s := by rw [endVal_ok, hS.s]; rfl
  obtain ⟨d, e1, t1, l1⟩ := preDbl_val hS hg (VT_affine hq1 hq2 hQ)
  dsimp only at e1
  have t2 : (2 : ℕ) • (Point.some _ _ hQ : S.E') ≠ 0 := hB.ne h0 (by rw [hS.r]; exact two_ok)
  obtain ⟨c1, T1, e2, v2, l2⟩ := preAdd_val hS t1 hq1 hq2 hQ (by rw [two_nsmul] at t2; exact t2)
    (fun h1 => h0 (add_eq_left.1 h1)) [d.l]
  have e3 : (3 : ℕ) • (Point.some _ _ hQ : S.E') = .some _ _ hQ + .some _ _ hQ + .some _ _ hQ := by
    rw [succ_nsmul, two_nsmul]
  rw [← e3] at v2
  obtain ⟨new, T2, m1, m2, m3⟩ := preLoop_val hS hg hq1 hq2 hQ (siTbl.drop 2) ([d.l] ++ [c1]) T1 3 (by norm_num) v2
    (loop_conds hS hB h0)
  rw [hs] at m2
  have hfin : (S.s • (Point.some _ _ hQ : S.E')) ≠ 0 ∧ S.s • (Point.some _ _ hQ : S.E') ≠ S.phi (.some _ _ hQ) ∧
      S.s • (Point.some _ _ hQ : S.E') + S.phi (.some _ _ hQ) ≠ 0 ∧
      S.s • (Point.some _ _ hQ : S.E') + S.phi (.some _ _ hQ) ≠ -S.phi (S.phi (.some _ _ hQ)) := by
    have := fin_conds' hS (OnE.of (genP_non hS)) hB h0
    rwa [one1_nsmul_A] at this
  obtain ⟨f1, f2, f3, f4⟩ := hfin
  obtain ⟨x1, y1, k1, p1, v1, v2⟩ := frob1_pt hS hq1 hq2 hQ
  obtain ⟨x2, y2, k2, p2, w1, w2⟩ := frob1_pt hS v1 v2 k1
  obtain ⟨k3, p3⟩ := neg_some k2
  rw [p1] at f2 f3 f4
  rw [p2, p3] at f4
  obtain ⟨c3, T3', e3', v3, l3⟩ := preAdd_val hS m2 v1 v2 k1 f1 f2 ([d.l] ++ [c1] ++ new)
  obtain ⟨c4, T4, e4, v4, l4⟩ := preAdd_val hS v3 (Q := ((frobTwist2 Q).1, S2.neg (frobTwist2 Q).2)) w1 w2.neg k3 f3 f4
    ([d.l] ++ [c1] ++ new ++ [c3])
  have e3u : ∀ P (h : S.OnE P), (3 • one1 h (.some _ _ hQ)).u = gamma h (.some _ _ hQ) (.some _ _ hQ) *
      gamma h (Point.some q1 q2 hQ + .some _ _ hQ) (.some _ _ hQ) := fun P h => by
    rw [show 3 • one1 h (.some _ _ hQ) = one1 h (.some _ _ hQ) + one1 h (.some _ _ hQ) + one1 h (.some _ _ hQ) by
      rw [succ_nsmul, two_nsmul], add_one1_u, add_one1_u, one1_u, one_mul]
    rfl
  refine ⟨d.l :: c1 :: (new ++ [c3, c4]), ?_, fun P h => ⟨d.l, c1, new ++ [c3, c4], c3, c4, [], _, _, _, _, _, rfl, l1 P h,
    l2 P h, by have := m3 P h [c3, c4]; rw [e3u] at this; exact this, l3 P h, l4 P h, ?_⟩⟩
  · unfold preAff
    rw [e1, Res.bind_ok, e2, Res.bind_ok, m1, Res.bind_ok]
    dsimp only
    rw [e3', Res.bind_ok, e4, Res.bind_ok]
    simp only [List.append_assoc, List.cons_append, List.nil_append]; rfl
  · rw [hs, ← ate_eq, p1, p2, sub_eq_add_neg, neg_one1, p3, add_one1_u, add_one1_u, add_one1_A, one1_nsmul_A, mul_assoc]

end Pr
end Verif.Snark
