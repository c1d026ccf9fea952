import Verif.Snark.CompInf

/-!
SNARK build: `millerLoop` and `final_exp` on precomputed coefficients with P at infinity, whose normalised form is (0, 0, 0).
-/

namespace Verif.Snark
namespace Fast

variable {g : Cfg} {Q : R2 × R2}

/-! ### Canonical constant coefficients -/

/-- the ranges of a stored line: `a_` is canonical, the others are below 3p -/
def LOk (c : R6) : Prop := c.a.SCan ∧ c.b.SLt3 ∧ c.c.SLt3
/-- all stored lines are in these ranges -/
def ACan (cs : List R6) : Prop := ∀ c ∈ cs, LOk c

theorem ACan.snoc {cs : List R6} {c : R6} (h : ACan cs) (hc : LOk c) : ACan (cs ++ [c]) := by
  intro d hd
  rcases List.mem_append.1 hd with hd | hd
  · exact h d hd
  · rw [List.mem_singleton.1 hd]; exact hc

theorem preAdd_a (h1 : Q.1.SCan) (h2 : Q.2.SCan) {st st' : List R6 × T3} (hT : T3C st.2) (hc : ACan st.1) (h : preAdd Q st = .ok st') :
    T3C st'.2 ∧ ACan st'.1 := by
  obtain ⟨e, k1, ⟨a1, a2, a3⟩, ⟨b1, b2, b3⟩, -⟩ := addLine_den hT.x hT.y hT.z h1 h2
  unfold preAdd at h
  rw [k1, Res.bind_ok] at h
  cases h
  exact ⟨⟨b1, b2, b3⟩, hc.snoc ⟨a1, a2.lt3, a3.lt3⟩⟩

theorem preDigit_a (h1 : Q.1.SCan) (h2 : Q.2.SCan) {s : ℤ} {st st' : List R6 × T3} (hT : T3C st.2) (hc : ACan st.1)
    (h : preDigit Q s st = .ok st') : T3C st'.2 ∧ ACan st'.1 := by
  unfold preDigit at h
  split at h
  · exact preAdd_a h1 h2 hT hc h
  · split at h
    · exact preAdd_a (Q := (Q.1, S2.neg Q.2)) h1 (neg_can h2) hT hc h
    · cases h; exact ⟨hT, hc⟩

theorem pdbl_a (hb : g.binv.SCan) {T : T3} (hT : T3C T) {e : LineR} (h : pointDblLineEvalWithoutP g.b82 g.binv T.x T.y T.z = .ok e) :
    LOk e.l ∧ T3C ⟨e.x, e.y, e.z⟩ := by
  obtain ⟨e', h1, ⟨a1, a2, a3⟩, ⟨b1, b2, b3⟩, -⟩ := dblLine_den (b82 := g.b82) hb hT.x hT.y hT.z
  have := h1.symm.trans h
  cases this
  exact ⟨⟨a1, a2.lt3, a3⟩, b1, b2, b3⟩

theorem preLoop_a (hb : g.binv.SCan) (h1 : Q.1.SCan) (h2 : Q.2.SCan) : ∀ (tbl : List ℤ) {st st' : List R6 × T3}, T3C st.2 → ACan st.1 →
    preLoop g Q tbl st = .ok st' → T3C st'.2 ∧ ACan st'.1
  | [], st, st', hT, hc, h => by cases h; exact ⟨hT, hc⟩
  | s :: tbl, st, st', hT, hc, h => by
    unfold preLoop at h
    obtain ⟨e, k1, h⟩ := bind_eq_ok h
    obtain ⟨st1, k2, k3⟩ := bind_eq_ok h
    obtain ⟨a1, a2⟩ := pdbl_a hb hT k1
    obtain ⟨b1, b2⟩ := preDigit_a h1 h2 (st := (st.1 ++ [e.l], ⟨e.x, e.y, e.z⟩)) a2 (hc.snoc a1) k2
    exact preLoop_a hb h1 h2 tbl b1 b2 k3

theorem preAff_a (hb : g.binv.SCan) (h1 : Q.1.SCan) (h2 : Q.2.SCan) {cs : List R6} (h : preAff g Q = .ok cs) : ACan cs := by
  obtain ⟨w1, w2⟩ := frobTwist1_can h1 h2
  obtain ⟨w3, w4⟩ := frobTwist1_can w1 w2
  unfold preAff at h
  obtain ⟨d, k1, h⟩ := bind_eq_ok h
  obtain ⟨st1, k2, h⟩ := bind_eq_ok h
  obtain ⟨st2, k3, h⟩ := bind_eq_ok h
  dsimp only at h
  rw [frobTwist1_eq, twist_eq] at h
  obtain ⟨st3, k4, h⟩ := bind_eq_ok h
  obtain ⟨st4, k5, h⟩ := bind_eq_ok h
  cases h
  obtain ⟨a1, a2⟩ := pdbl_a hb (T3C.mk (T := ⟨Q.1, Q.2, ⟨montR, 0⟩⟩) h1 h2 one_can) k1
  obtain ⟨b1, b2⟩ := preAdd_a h1 h2 (st := ([d.l], ⟨d.x, d.y, d.z⟩)) a2 (by
    intro c hc; rw [List.mem_singleton.1 hc]; exact a1) k2
  obtain ⟨c1, c2⟩ := preLoop_a hb h1 h2 _ b1 b2 k3
  obtain ⟨d1, d2⟩ := preAdd_a w1 w2 c1 c2 k4
  exact (preAdd_a (Q := ((frobTwist1 (frobTwist1 Q)).1, S2.neg (frobTwist1 (frobTwist1 Q)).2)) w3 (neg_can w4) d1 d2 k5).2

/-! ### Elements of Fp2 in Fp12 -/

/-- an element of Fp2 as a line -/
def s6 (c : R2) : R6 := ⟨c, z2, z2⟩
/-- an element of Fp2 in Fp12 -/
def s12 (c : R2) : R12 := ⟨s6 c, ⟨z2, z2, z2⟩⟩

variable {c d : R2}

theorem s6_can (hc : c.SCan) : (s6 c).SCan := ⟨hc, z2_can, z2_can⟩
theorem s12_can (hc : c.SCan) : (s12 c).SCan := ⟨s6_can hc, z2_can, z2_can, z2_can⟩
theorem s12_den (c : R2) : (s12 c).sden = G12.incl c.sden := by
  rw [G12.incl_apply]
  unfold s12 s6 R12.sden R6.sden
  dsimp only
  rw [z2_den]
  rfl
theorem s12_zero : s12 z2 = z12 := rfl
theorem s12_one : s12 ⟨montR, 0⟩ = oneW := rfl
theorem s6_line (c : R2) : (s6 c).sden.line = G12.incl c.sden := by
  rw [G12.incl_apply]
  unfold s6 R6.sden G6.line
  rw [z2_den]
  rfl

theorem lineAt_zero {l : R6} (hl : LOk l) : lineAt l (0, 0) = s6 l.a := by
  have h : ∀ {x : R2}, x.SLt3 → S2.mulFp0 x 0 = z2 := fun {x} hx => by
    obtain ⟨a, b⟩ := S2.mulFp0_wide hx p_pos
    refine V2.eq_zero ⟨a, b.trans ?_⟩
    rw [residue_zero, show (⟨0, 0⟩ : G2) = 0 from rfl, mul_zero]
  unfold lineAt mulFp6_24_Fp_01
  dsimp only
  rw [h hl.2.1, h hl.2.2]; rfl

theorem of_incl {y : R12} {v : G2} (h : V12 (G12.incl v) y) : ∃ d, d.SCan ∧ d.sden = v ∧ y = s12 d := by
  refine ⟨y.a.a, h.1.1.1, ?_, sden12_inj h.1 (s12_can h.1.1.1) ?_⟩
  · have := congrArg (fun z : G12 => z.a.a) h.2
    exact this
  · have := congrArg (fun z : G12 => z.a.a) h.2
    rw [s12_den, h.2]
    exact congrArg _ this.symm

theorem fm_can (c d : R2) : (fm c d).SCan := mix_can _ _
theorem fm_den (hc : c.SCan) (hd : d.SCan) : (fm c d).sden = c.sden * d.sden := (vfm ⟨hc, rfl⟩ ⟨hd, rfl⟩).2

theorem line_mul (hc : c.SCan) (hd : d.SCan) : S12.mul024_024 (s6 c) (s6 d) = s12 (fm c d) := by
  obtain ⟨m1, m2⟩ := S12.mul024_024_den (s6_can hc) (s6_can hd)
  refine sden12_inj m1 (s12_can (fm_can _ _)) ?_
  rw [m2, s6_line, s6_line, ← map_mul, s12_den, fm_den hc hd]

theorem mul_line (hc : c.SCan) (hd : d.SCan) : S12.mul024 (s12 c) (s6 d) = s12 (fm c d) := by
  obtain ⟨m1, m2⟩ := S12.mul024_den (s12_can hc) (s6_can hd)
  refine sden12_inj m1 (s12_can (fm_can _ _)) ?_
  rw [m2, s6_line, s12_den, ← map_mul, s12_den, fm_den hc hd]

theorem pN_pos : 0 < pN := by decide +kernel
theorem cb_zero (c : R2) (y : R6) (h : y.c = z2) : cb (s6 c) y < pN := by
  have : cb (s6 c) y = 0 := by unfold cb s6; rw [h]; unfold z2; simp
  rw [this]; exact pN_pos
theorem cb_zero' (y : R6) : cb ⟨z2, z2, z2⟩ y < pN := by
  have : cb ⟨z2, z2, z2⟩ y = 0 := by unfold cb z2; simp
  rw [this]; exact pN_pos
theorem add_z6 (hc : c.SCan) : S6.add (s6 c) ⟨z2, z2, z2⟩ = s6 c := by
  obtain ⟨u1, u2⟩ := S6.add_den (s6_can hc) (show (⟨z2, z2, z2⟩ : R6).SCan from ⟨z2_can, z2_can, z2_can⟩)
  exact sden6_inj u1 (s6_can hc) (by rw [u2, z6_den, add_zero])

theorem mul_s12 (hc : c.SCan) (hd : d.SCan) (k : Bool) : S12.mulK k (s12 c) (s12 d) = .ok (s12 (fm c d)) := by
  have hk : S12.mulK true (s12 c) (s12 d) = .ok (S12.mul (s12 c) (s12 d)) := by
    unfold S12.mulK
    refine if_neg fun h => h.2 ⟨cb_zero _ _ rfl, cb_zero' _, ?_⟩
    unfold s12
    dsimp only
    rw [add_z6 hc, add_z6 hd]
    exact cb_zero _ _ rfl
  obtain ⟨h1, h2, h3⟩ := V12.mulK ⟨s12_can hc, rfl⟩ ⟨s12_can hd, rfl⟩ _ hk
  have e : S12.mul (s12 c) (s12 d) = s12 (fm c d) := by
    refine sden12_inj h2 (s12_can (fm_can _ _)) ?_
    rw [h3, s12_den, s12_den, ← map_mul, s12_den, fm_den hc hd]
  rw [← e]
  cases k
  · exact h1
  · exact hk

theorem sq_s12 (hc : c.SCan) (k : Bool) : S12.squareK k (s12 c) = .ok (s12 (fm c c)) := by
  have hx := s12_can hc
  obtain ⟨t, e, t1, t2⟩ := S6.mulGammaAdd_den hx.2 hx.1
  have et : t = s6 c := sden6_inj t1 hx.1 (by
    rw [t2, show (s12 c).b.sden = 0 from z6_den, mul_zero, zero_add]; rfl)
  subst et
  have c1 : cb (s12 c).b (s12 c).a < pN := cb_zero' _
  have c2 : cb (S6.add (s12 c).a (s12 c).b) (s6 c) < pN := by
    unfold s12
    dsimp only
    rw [add_z6 hc]
    exact cb_zero _ _ rfl
  obtain ⟨y, h1, h2, h3⟩ := S12.square_den hx c1 (by
    intro t ht
    rw [e] at ht
    cases ht
    exact c2)
  have ey : y = s12 (fm c c) := by
    refine sden12_inj h2 (s12_can (fm_can _ _)) ?_
    rw [h3, s12_den, ← map_mul, s12_den, fm_den hc hc]
  unfold S12.squareK
  rw [e, Res.bind_ok, if_neg fun h => h.2 ⟨c1, c2⟩, h1, ey]

theorem inverse_s12 (hc : c.SCan) (h0 : c.sden ≠ 0) (k : Bool) : ∃ d, d.SCan ∧ d.sden = c.sden⁻¹ ∧ S12.inverse k (s12 c) = .ok (s12 d) := by
  have hg : G12.incl c.sden ≠ 0 := fun h => h0 ((map_eq_zero_iff G12.incl G12.incl.injective).1 h)
  have hx : V12 (G12.incl c.sden) (s12 c) := ⟨s12_can hc, s12_den c⟩
  have hk : ∃ y, S12.inverse true (s12 c) = .ok y := by
    obtain ⟨t0, e1, h1⟩ := hx.pa.square
    obtain ⟨t1, e2, h2⟩ := hx.pb.square
    obtain ⟨t2, e3, h3⟩ := h2.pc.mulXi
    have h4 := V6.mk (h1.pa.sub h3) (h1.pb.sub h2.pa) (h1.pc.sub h2.pb)
    rw [V12.norm_coord] at h4
    obtain ⟨t3, e4, h5⟩ := h4.inverse (G12.norm_ne hg)
    have hz : t3.c = z2 := by
      refine V2.eq_zero ?_
      have := h5.pc
      rw [G6.inv_def, G12.incl_apply] at this
      simpa [G12.norm, G6.mul_a, G6.mul_b, G6.mul_c] using this
    have e5 : ∃ a, S6.mulK true (s12 c).a t3 = .ok a := ⟨_, if_neg fun h => h.2 (cb_zero c t3 hz)⟩
    have e6 : ∃ a, S6.mulK true (s12 c).b t3 = .ok a := ⟨_, if_neg fun h => h.2 (cb_zero' t3)⟩
    obtain ⟨a, e5⟩ := e5
    obtain ⟨b, e6⟩ := e6
    refine ⟨⟨a, S6.neg b⟩, ?_⟩
    unfold S12.inverse
    rw [e1, Res.bind_ok, e2, Res.bind_ok, e3, Res.bind_ok]
    dsimp only
    rw [e4, Res.bind_ok, e5, Res.bind_ok, e6, Res.bind_ok]
    rfl
  obtain ⟨y, hy⟩ := hk
  obtain ⟨h1, h2⟩ := hx.inverse hg y hy
  rw [← map_inv₀] at h2
  obtain ⟨d, d1, d2, rfl⟩ := of_incl h2
  refine ⟨d, d1, d2, ?_⟩
  cases k
  · exact h1
  · exact hy

/-! ### The final exponentiation -/

theorem conj_s12 (c : R2) : S12.conj (s12 c) = s12 c := by
  unfold S12.conj s12
  dsimp only
  rw [show S6.neg ⟨z2, z2, z2⟩ = (⟨z2, z2, z2⟩ : R6) by decide +kernel]
theorem mulK_one (k : Bool) : S12.mulK k oneW oneW = .ok oneW := by cases k <;> decide +kernel
theorem sqru_one : S12.sqru oneW = .ok oneW := by decide +kernel
theorem f1_one : S12.frobenius oneW = oneW := by rw [frobenius_eq]; decide +kernel
theorem f2_one : S12.frobenius2 oneW = oneW := by rw [frobenius2_eq]; decide +kernel
theorem f3_one : S12.frobenius3 oneW = oneW := by rw [frobenius3_eq]; decide +kernel
theorem powLoop_one (k : Bool) (ds : List ℤ) : S12.powLoop k oneW oneW ds oneW = .ok oneW := by
  induction ds with
  | nil => rfl
  | cons d ds ih =>
    have h : S12.powDigit k oneW oneW d oneW = .ok oneW := by
      unfold S12.powDigit
      rw [mulK_one]
      split
      · rfl
      · split <;> rfl
    unfold S12.powLoop
    rw [sqru_one, Res.bind_ok, h, Res.bind_ok, ih]

/-- the final exponentiation takes elements of Fp2 other than 0 to 1 -/
theorem finalExp_s12 (hc : c.SCan) (h0 : c.sden ≠ 0) (k : Bool) : S12.finalExp k (s12 c) = .ok oneW := by
  obtain ⟨d, d1, d2, h1⟩ := inverse_s12 hc h0 k
  have e : s12 (fm c d) = oneW := by
    refine sden12_inj (s12_can (fm_can _ _)) (by decide +kernel) ?_
    rw [s12_den, fm_den hc d1, d2, mul_inv_cancel₀ h0, map_one, oneW_sden]
  have h2 := mul_s12 hc d1 k
  rw [e] at h2
  have h3 : S12.conj oneW = oneW := conj_s12 _
  have h4 : S12.mapToCyclo k (s12 c) = .ok oneW := by
    unfold S12.mapToCyclo
    rw [conj_s12]
    refine ok_bind h1 (ok_bind h2 ?_)
    dsimp only
    rw [f2_one, mulK_one]
  unfold S12.finalExp
  exact ok_bind h4 (fix_hardPart (fix_powNegT (powLoop_one k) h3) h3 (mulK_one k) sqru_one f1_one f2_one f3_one)

/-! ### The loop -/

/-- an accumulator in Fp2 that is zero exactly if one of the lines read so far is -/
def Acc0 (f : R12) (u : Prop) : Prop := ∃ c : R2, c.SCan ∧ f = s12 c ∧ (c.sden = 0 ↔ u)

theorem sden_zero (hc : c.SCan) : c.sden = 0 ↔ c = z2 :=
  ⟨fun h => V2.eq_zero ⟨hc, h⟩, fun h => by rw [h, z2_den]⟩

theorem Acc0.line {f : R12} {u : Prop} (hf : Acc0 f u) {l : R6} (hl : LOk l) :
    Acc0 (S12.mul024 f (lineAt l (0, 0))) (u ∨ l.a = z2) := by
  obtain ⟨c, h1, rfl, h2⟩ := hf
  refine ⟨fm c l.a, fm_can _ _, by rw [lineAt_zero hl, mul_line h1 hl.1], ?_⟩
  rw [fm_den h1 hl.1, mul_eq_zero, h2, sden_zero hl.1]

theorem Acc0.two {l m : R6} (hl : LOk l) (hm : LOk m) :
    Acc0 (S12.mul024_024 (lineAt l (0, 0)) (lineAt m (0, 0))) (l.a = z2 ∨ m.a = z2) := by
  refine ⟨fm l.a m.a, fm_can _ _, by rw [lineAt_zero hl, lineAt_zero hm, line_mul hl.1 hm.1], ?_⟩
  rw [fm_den hl.1 hm.1, mul_eq_zero, sden_zero hl.1, sden_zero hm.1]

theorem Acc0.sq {f : R12} {u : Prop} (hf : Acc0 f u) : ∃ y, (∀ k, S12.squareK k f = .ok y) ∧ Acc0 y u := by
  obtain ⟨c, h1, rfl, h2⟩ := hf
  refine ⟨_, fun k => sq_s12 h1 k, fm c c, fm_can _ _, rfl, ?_⟩
  rw [fm_den h1 h1, mul_self_eq_zero, h2]

theorem Acc0.mul {f f' : R12} {u u' : Prop} (hf : Acc0 f u) (hf' : Acc0 f' u') : ∃ y, (∀ k, S12.mulK k f f' = .ok y) ∧ Acc0 y (u ∨ u') := by
  obtain ⟨c, h1, rfl, h2⟩ := hf
  obtain ⟨d, h3, rfl, h4⟩ := hf'
  refine ⟨_, fun k => mul_s12 h1 h3 k, fm c d, fm_can _ _, rfl, ?_⟩
  rw [fm_den h1 h3, mul_eq_zero, h2, h4]

/-- lines read for the digits of a table -/
def reads (tbl : List ℤ) : ℕ := (tbl.map fun s => if s = 0 then 1 else 2).sum

/-- some line of the list goes through (0, 0) -/
def Bad (cs : List R6) : Prop := ∃ c ∈ cs, c.a = z2

theorem Bad.cons {c : R6} {cs : List R6} : Bad (c :: cs) ↔ c.a = z2 ∨ Bad cs := List.exists_mem_cons_iff ..

theorem mlLoop_zero : ∀ (tbl : List ℤ) {cs rest : List R6} {f : R12} {u : Prop}, cs.length = reads tbl → ACan cs → Acc0 f u →
    ∃ f', (∀ k, mlLoop k (0, 0) tbl (f, cs ++ rest) = .ok (f', rest)) ∧ Acc0 f' (u ∨ Bad cs)
  | [], cs, rest, f, u, hl, hc, hf => by
    obtain rfl : cs = [] := List.length_eq_zero_iff.1 hl
    exact ⟨f, fun k => rfl, by simpa [Bad] using hf⟩
  | s :: tbl, cs, rest, f, u, hl, hc, hf => by
    unfold reads at hl
    rw [List.map_cons, List.sum_cons] at hl
    obtain ⟨y, hy, hyf⟩ := hf.sq
    by_cases hs : s = 0
    · rw [if_pos hs] at hl
      obtain ⟨c, cs, rfl⟩ : ∃ c cs', cs = c :: cs' := by
        cases cs with
        | nil => simp at hl; omega
        | cons c cs => exact ⟨c, cs, rfl⟩
      have h1 := hyf.line (hc c (by simp))
      obtain ⟨f', h2, h3⟩ := mlLoop_zero tbl (cs := cs) (rest := rest) (by rw [List.length_cons] at hl; unfold reads; omega)
        (fun d hd => hc d (by simp [hd])) h1
      refine ⟨f', fun k => ?_, by rwa [Bad.cons, ← or_assoc]⟩
      unfold mlLoop
      dsimp only [next, List.cons_append]
      rw [Res.bind_ok, hy k, Res.bind_ok]
      unfold mlDigit
      rw [if_neg (not_not.2 hs), Res.bind_ok, h2]
    · rw [if_neg hs] at hl
      obtain ⟨c, d, cs, rfl⟩ : ∃ c d cs', cs = c :: d :: cs' := by
        cases cs with
        | nil => simp only [List.length_nil] at hl; omega
        | cons c cs =>
          cases cs with
          | nil => simp at hl; omega
          | cons d cs => exact ⟨c, d, cs, rfl⟩
      have h1 := (hyf.line (hc c (by simp))).line (hc d (by simp))
      obtain ⟨f', h2, h3⟩ := mlLoop_zero tbl (cs := cs) (rest := rest) (by simp only [List.length_cons] at hl; unfold reads; omega)
        (fun d hd => hc d (by simp [hd])) h1
      refine ⟨f', fun k => ?_, by rwa [Bad.cons, Bad.cons, ← or_assoc, ← or_assoc]⟩
      unfold mlLoop
      dsimp only [next, List.cons_append]
      rw [Res.bind_ok, hy k, Res.bind_ok]
      unfold mlDigit
      rw [if_pos hs]
      dsimp only [next]
      rw [Res.bind_ok]
      exact ok_bind rfl (h2 k)

/-- the whole loop: 0 if a line goes through (0, 0), otherwise an element of Fp2 that is not 0 -/
theorem millerPre_zero {cs : List R6} (hl : cs.length = 4 + reads (siTbl.drop 2)) (hc : ACan cs) :
    ∃ f, (∀ k, millerPre k cs (0, 0) = .ok f) ∧ Acc0 f (Bad cs) := by
  obtain ⟨d, e, cs, rfl⟩ : ∃ d e cs', cs = d :: e :: cs' := by
    cases cs with
    | nil => simp at hl; omega
    | cons c cs =>
      cases cs with
      | nil => simp at hl; omega
      | cons d cs => exact ⟨c, d, cs, rfl⟩
  simp only [List.length_cons] at hl
  obtain ⟨m, t, rfl, hm⟩ : ∃ m t, cs = m ++ t ∧ m.length = reads (siTbl.drop 2) :=
    ⟨cs.take (reads (siTbl.drop 2)), cs.drop (reads (siTbl.drop 2)), (List.take_append_drop _ _).symm, by
      rw [List.length_take]; omega⟩
  rw [List.length_append] at hl
  obtain ⟨d', e', rfl⟩ : ∃ d' e', t = [d', e'] := List.length_eq_two.1 (by omega)
  obtain ⟨f, h1, h2⟩ := mlLoop_zero (siTbl.drop 2) (rest := [d', e']) hm (fun c h => hc c (by simp [h]))
    (Acc0.two (hc d (by simp)) (hc e (by simp)))
  obtain ⟨y, h3, h4⟩ := h2.mul (Acc0.two (hc d' (by simp)) (hc e' (by simp)))
  refine ⟨y, fun k => ?_, ?_⟩
  · unfold millerPre
    dsimp only [next]
    rw [Res.bind_ok, Res.bind_ok]
    dsimp only
    rw [h1 k, Res.bind_ok]
    dsimp only [next]
    rw [Res.bind_ok, Res.bind_ok]
    exact h3 k
  · have : Bad (d :: e :: (m ++ [d', e'])) ↔ ((d.a = z2 ∨ e.a = z2) ∨ Bad m) ∨ (d'.a = z2 ∨ e'.a = z2) := by
      rw [Bad.cons, Bad.cons]
      unfold Bad
      simp only [List.mem_append, List.mem_cons, List.not_mem_nil, or_false, or_and_right, exists_or, exists_eq_left, or_assoc]
    rwa [this]

theorem preFinal_zero (hb : g.binv.SCan) (h1 : Q.1.SCan) (h2 : Q.2.SCan) {cs : List R6} (h : preAff g Q = .ok cs) (k : Bool) :
    ((millerPre k cs (0, 0) >>= S12.finalExp k) = .ok oneW ∧ ∀ c ∈ cs, c.a ≠ z2) ∨
    ((millerPre k cs (0, 0) >>= S12.finalExp k) = .ok z12 ∧ ∃ c ∈ cs, c.a = z2) := by
  obtain ⟨f, e, c, hc, rfl, hz⟩ := millerPre_zero (preAff_len h) (preAff_a hb h1 h2 h)
  rw [e k, Res.bind_ok]
  by_cases h0 : c.sden = 0
  · right
    refine ⟨?_, hz.1 h0⟩
    rw [(sden_zero hc).1 h0]
    exact finalExp_zero k
  · left
    exact ⟨finalExp_s12 hc h0 k, fun d hd e => h0 (hz.2 ⟨d, hd, e⟩)⟩

end Fast
end Verif.Snark
