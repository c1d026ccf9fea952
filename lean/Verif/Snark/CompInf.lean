import Verif.Snark.CompRun

/-!
SNARK build: `precomputeG2` on arbitrary canonical buffers, and the precomputed form at infinity.
-/

namespace Verif.Snark
namespace Fast

variable {g : Cfg} {P : ℕ × ℕ} {Q : R2 × R2}

/-! ### `precomputeG2` ends on all canonical buffers -/

theorem preAdd_total (h1 : Q.1.SCan) (h2 : Q.2.SCan) {st : List R6 × T3} (hT : T3C st.2) :
    ∃ st', preAdd Q st = .ok st' ∧ T3C st'.2 := by
  obtain ⟨l, a1, -, a2⟩ := padd (P := (0, 0)) p_pos p_pos h1 h2 hT
  exact ⟨_, a1 st.1, a2.t⟩

theorem preDigit_total (h1 : Q.1.SCan) (h2 : Q.2.SCan) (s : ℤ) {st : List R6 × T3} (hT : T3C st.2) :
    ∃ st', preDigit Q s st = .ok st' ∧ T3C st'.2 := by
  unfold preDigit
  split
  · exact preAdd_total h1 h2 hT
  · split
    · exact preAdd_total (Q := (Q.1, S2.neg Q.2)) h1 (neg_can h2) hT
    · exact ⟨_, rfl, hT⟩

theorem pdbl_total (hb : g.binv.SCan) {T : T3} (hT : T3C T) :
    ∃ e, pointDblLineEvalWithoutP g.b82 g.binv T.x T.y T.z = .ok e ∧ T3C ⟨e.x, e.y, e.z⟩ := by
  obtain ⟨e, h1, -, ⟨b1, b2, b3⟩, -⟩ := dblLine_den (b82 := g.b82) hb hT.x hT.y hT.z
  exact ⟨e, h1, b1, b2, b3⟩

theorem preLoop_total (hb : g.binv.SCan) (h1 : Q.1.SCan) (h2 : Q.2.SCan) : ∀ (tbl : List ℤ) {st : List R6 × T3}, T3C st.2 →
    ∃ st', preLoop g Q tbl st = .ok st' ∧ T3C st'.2
  | [], st, hT => ⟨st, rfl, hT⟩
  | s :: tbl, st, hT => by
    obtain ⟨e, a1, a2⟩ := pdbl_total hb hT
    obtain ⟨st1, b1, b2⟩ := preDigit_total h1 h2 s (st := (st.1 ++ [e.l], ⟨e.x, e.y, e.z⟩)) a2
    obtain ⟨st2, c1, c2⟩ := preLoop_total hb h1 h2 tbl b2
    exact ⟨st2, by unfold preLoop; rw [a1, Res.bind_ok, b1, Res.bind_ok, c1], c2⟩

theorem preAff_total (hb : g.binv.SCan) (h1 : Q.1.SCan) (h2 : Q.2.SCan) : ∃ cs, preAff g Q = .ok cs := by
  obtain ⟨w1, w2⟩ := frobTwist1_can h1 h2
  obtain ⟨w3, w4⟩ := frobTwist1_can w1 w2
  obtain ⟨d, a1, a2⟩ := pdbl_total hb (T3C.mk (T := ⟨Q.1, Q.2, ⟨montR, 0⟩⟩) h1 h2 one_can)
  obtain ⟨st1, b1, b2⟩ := preAdd_total (Q := Q) h1 h2 (st := ([d.l], ⟨d.x, d.y, d.z⟩)) a2
  obtain ⟨st2, c1, c2⟩ := preLoop_total hb h1 h2 (siTbl.drop 2) b2
  obtain ⟨st3, d1, d2⟩ := preAdd_total w1 w2 c2
  obtain ⟨st4, e1, -⟩ := preAdd_total (Q := ((frobTwist1 (frobTwist1 Q)).1, S2.neg (frobTwist1 (frobTwist1 Q)).2)) w3
    (neg_can w4) d2
  refine ⟨st4.1, ?_⟩
  unfold preAff
  rw [a1, Res.bind_ok, b1, Res.bind_ok, c1, Res.bind_ok, frobTwist1_eq, twist_eq]
  dsimp only
  rw [d1, Res.bind_ok, e1, Res.bind_ok]
  rfl

/-! ### The number of coefficients -/

theorem preAdd_len {Q : R2 × R2} {st st' : List R6 × T3} (h : preAdd Q st = .ok st') : st'.1.length = st.1.length + 1 := by
  obtain ⟨c, h1, -⟩ := preAdd_ok h
  rw [h1, List.length_append]; rfl

theorem preDigit_len {s : ℤ} {st st' : List R6 × T3} (h : preDigit Q s st = .ok st') :
    st'.1.length = st.1.length + if s = 0 then 0 else 1 := by
  unfold preDigit at h
  split at h
  · rw [preAdd_len h, if_neg (by omega)]
  · split at h
    · rw [preAdd_len h, if_neg (by omega)]
    · cases h
      rw [if_pos (by omega)]; rfl

theorem preLoop_len : ∀ (tbl : List ℤ) {st st' : List R6 × T3}, preLoop g Q tbl st = .ok st' →
    st'.1.length = st.1.length + (tbl.map fun s => if s = 0 then 1 else 2).sum
  | [], st, st', h => by cases h; rfl
  | s :: tbl, st, st', h => by
    unfold preLoop at h
    obtain ⟨e, h1, h⟩ := bind_eq_ok h
    obtain ⟨st1, h2, h3⟩ := bind_eq_ok h
    rw [preLoop_len tbl h3, preDigit_len h2, List.map_cons, List.sum_cons, List.length_append]
    simp only [List.length_cons, List.length_nil]
    split <;> omega

theorem preAff_len {cs : List R6} (h : preAff g Q = .ok cs) :
    cs.length = 4 + ((siTbl.drop 2).map fun s => if s = 0 then 1 else 2).sum := by
  unfold preAff at h
  obtain ⟨d, -, h⟩ := bind_eq_ok h
  obtain ⟨st1, h2, h⟩ := bind_eq_ok h
  obtain ⟨st2, h3, h⟩ := bind_eq_ok h
  obtain ⟨st3, h4, h⟩ := bind_eq_ok h
  obtain ⟨st4, h5, h⟩ := bind_eq_ok h
  cases h
  rw [preAdd_len h5, preAdd_len h4, preLoop_len _ h3, preAdd_len h2]
  simp only [List.length_cons, List.length_nil]
  omega

/-! ### Infinity -/

def z2 : R2 := ⟨0, 0⟩
def zT : T3 := ⟨z2, z2, z2⟩
def z12 : R12 := ⟨⟨z2, z2, z2⟩, ⟨z2, z2, z2⟩⟩
theorem z2_can : z2.SCan := ⟨p_pos, p_pos⟩
theorem z2_den : z2.sden = 0 := G2.ext residue_zero residue_zero
theorem z6_den : (⟨z2, z2, z2⟩ : R6).sden = 0 := G6.ext z2_den z2_den z2_den
theorem z12_den : z12.sden = 0 := G12.ext z6_den z6_den
theorem z12_can : z12.SCan := ⟨⟨z2_can, z2_can, z2_can⟩, z2_can, z2_can, z2_can⟩
theorem sden6_inj {x y : R6} (hx : x.SCan) (hy : y.SCan) (h : x.sden = y.sden) : x = y := by
  obtain ⟨a, b, c⟩ := x
  obtain ⟨a', b', c'⟩ := y
  have k1 : a.sden = a'.sden := congrArg G6.a h
  have k2 : b.sden = b'.sden := congrArg G6.b h
  have k3 : c.sden = c'.sden := congrArg G6.c h
  have e1 : a = a' := sden_inj hx.1 hy.1 k1
  have e2 : b = b' := sden_inj hx.2.1 hy.2.1 k2
  have e3 : c = c' := sden_inj hx.2.2 hy.2.2 k3
  rw [e1, e2, e3]
theorem V2.zero : V2 0 z2 := ⟨z2_can, z2_den⟩
theorem V2.eq_zero {x : R2} (h : V2 0 x) : x = z2 := V2.inj h V2.zero

theorem add_zero_line (hx : P.1 < p) (hy : P.2 < p) {y : R2} (hyc : y.SCan) :
    ∃ l, l.SCan ∧ pointAddLineEval z2 y z2 z2 z2 P.1 P.2 = .ok ⟨⟨z2, z2, l⟩, z2, z2, z2⟩ ∧ (y = z2 → l = z2) := by
  obtain ⟨h, -⟩ := add_eq (T := ⟨z2, y, z2⟩) (Q := (z2, z2)) hx hy ⟨z2_can, hyc, z2_can⟩ z2_can z2_can
  obtain ⟨a1, a2, a3, a4, a5, a6⟩ := add_vals (T := ⟨z2, y, z2⟩) (Q := (z2, z2)) V2.zero ⟨hyc, rfl⟩ V2.zero V2.zero V2.zero P
    (A := 0) (B := y.sden) (t := 0) (by ring) (by ring) (by ring)
  generalize add P (z2, z2) ⟨z2, y, z2⟩ = d at *
  obtain ⟨⟨x1, x2, x3⟩, x4, x5, x6⟩ := d
  dsimp only at *
  rw [show G2.xi * (y.sden * 0 - 0 * 0) = 0 by ring] at a1
  rw [zero_mul] at a2 a4
  rw [show y.sden * (0 * 0 * 0 - 0) - 0 * 0 * 0 * y.sden = 0 by ring] at a5
  rw [show (0 : G2) * 0 * 0 * 0 = 0 by ring] at a6
  obtain rfl := V2.eq_zero a1
  obtain rfl := V2.eq_zero a2
  obtain rfl := V2.eq_zero a4
  obtain rfl := V2.eq_zero a5
  obtain rfl := V2.eq_zero a6
  refine ⟨x3, a3.1, h, fun h => V2.eq_zero ?_⟩
  rw [h, z2_den, neg_zero, zero_mul] at a3
  exact a3

theorem V2.of_two {e : G2} {x : R2} (h : V2 e x) (h2 : 2 * e = 0) : x = z2 := by
  have : e = 0 := by
    have h3 := k2
    linear_combination (-e) * h3 + (Fast.h2 : G2) * h2
  rw [this] at h
  exact V2.eq_zero h

theorem V2.of_four {e : G2} {x : R2} (h : V2 e x) (h2 : 4 * e = 0) : x = z2 := by
  have : e = 0 := by
    have h3 := k4
    linear_combination (-e) * h3 + (Fast.h4 : G2) * h2
  rw [this] at h
  exact V2.eq_zero h

theorem dbl_zero_line (hb : g.binv.SCan) (hx : P.1 < p) (hy : P.2 < p) {z : R2} (hz : z.SCan) :
    ∃ a y, a.SCan ∧ y.SCan ∧ pointDblLineEval g.b82 g.binv z2 z2 z P.1 P.2 = .ok ⟨⟨a, z2, z2⟩, z2, y, z2⟩ ∧
      (z = z2 → a = z2 ∧ y = z2) := by
  obtain ⟨e, h1, ⟨a1, a2, a3⟩, ⟨b1, b2, b3⟩, ⟨l1, l2, l3⟩, x1, x2, x3⟩ := dblLine_den (b82 := g.b82) hb z2_can z2_can hz
  obtain ⟨m1, m2⟩ := S2.mulFp0_wide a2.lt3 hy
  obtain ⟨m3, m4⟩ := S2.mulFp0_wide a3 hx
  rw [z2_den] at l1 l2 l3 x1 x2 x3
  have r1 : S2.mulFp0 e.l.b P.2 = z2 := V2.eq_zero ⟨m1, by rw [m2, l2]; ring⟩
  have r2 : S2.mulFp0 e.l.c P.1 = z2 := V2.eq_zero ⟨m3, by rw [m4, l3]; ring⟩
  have r3 : e.x = z2 := V2.of_two ⟨b1, rfl⟩ (by rw [x1]; ring)
  have r4 : e.z = z2 := V2.eq_zero ⟨b3, by rw [x3]; ring⟩
  refine ⟨e.l.a, e.y, a1, b2, ?_, fun h => ⟨V2.eq_zero ⟨a1, ?_⟩, V2.of_four ⟨b2, rfl⟩ ?_⟩⟩
  · unfold pointDblLineEval mulFp6_24_Fp_01
    rw [h1, Res.bind_ok, r1, r2, r3, r4]; rfl
  · rw [l1, h, z2_den]; ring
  · rw [x2, h, z2_den]; ring

theorem sq_zero (k : Bool) : S12.squareK k z12 = .ok z12 := by cases k <;> decide +kernel
theorem mulK_zero (k : Bool) : S12.mulK k z12 z12 = .ok z12 := by cases k <;> decide +kernel
theorem m024_zero : S12.mul024 z12 ⟨z2, z2, z2⟩ = z12 := by decide +kernel
theorem m024024_zero : S12.mul024_024 ⟨z2, z2, z2⟩ ⟨z2, z2, z2⟩ = z12 := by decide +kernel
theorem neg_zero : S2.neg z2 = z2 := by decide +kernel
theorem frob_zero : Snark.frobTwist1 (z2, z2) = (z2, z2) := by rw [frobTwist1_eq]; decide +kernel
theorem conj_zero : S12.conj z12 = z12 := by decide +kernel
theorem sqru_zero : S12.sqru z12 = .ok z12 := by decide +kernel
theorem f1_zero : S12.frobenius z12 = z12 := by rw [frobenius_eq]; decide +kernel
theorem f2_zero : S12.frobenius2 z12 = z12 := by rw [frobenius2_eq]; decide +kernel
theorem f3_zero : S12.frobenius3 z12 = z12 := by rw [frobenius3_eq]; decide +kernel
theorem inverse_zero (k : Bool) : S12.inverse k z12 = .ok z12 := by cases k <;> decide +kernel
theorem powLoop_zero (k : Bool) (ds : List ℤ) : S12.powLoop k z12 z12 ds z12 = .ok z12 := by
  induction ds with
  | nil => rfl
  | cons d ds ih =>
    have h : S12.powDigit k z12 z12 d z12 = .ok z12 := by
      unfold S12.powDigit
      rw [mulK_zero]
      split
      · rfl
      · split <;> rfl
    unfold S12.powLoop
    rw [sqru_zero, Res.bind_ok, h, Res.bind_ok, ih]
theorem fix_powNegT {k : Bool} {z : R12} (h1 : ∀ ds, S12.powLoop k z z ds z = .ok z) (h2 : S12.conj z = z) :
    S12.powNegT k z = .ok z := by
  unfold S12.powNegT
  simp only [h2, h1, Res.bind_ok]; rfl
theorem ok_bind {α β : Type} {m : Res α} {g : α → Res β} {a : α} {b : β} (h : m = .ok a) (h' : g a = .ok b) :
    (m >>= g) = .ok b := by rw [h]; exact h'
theorem fix_mapToCyclo {k : Bool} {z : R12} (h2 : S12.conj z = z) (h3 : S12.inverse k z = .ok z)
    (h4 : S12.mulK k z z = .ok z) (h7 : S12.frobenius2 z = z) : S12.mapToCyclo k z = .ok z := by
  unfold S12.mapToCyclo
  rw [h2]
  refine ok_bind h3 (ok_bind h4 ?_)
  rw [h7]; exact h4
theorem fix_hardPart {k : Bool} {z : R12} (h1 : S12.powNegT k z = .ok z) (h2 : S12.conj z = z)
    (h4 : S12.mulK k z z = .ok z) (h5 : S12.sqru z = .ok z) (h6 : S12.frobenius z = z) (h7 : S12.frobenius2 z = z)
    (h8 : S12.frobenius3 z = z) : S12.hardPart k z = .ok z := by
  unfold S12.hardPart
  refine ok_bind h1 (ok_bind h5 (ok_bind h5 (ok_bind h4 (ok_bind h1 (ok_bind h5 (ok_bind h1 ?_))))))
  rw [h2]
  refine ok_bind h4 (ok_bind h4 (ok_bind h4 (ok_bind h4 (ok_bind h4 ?_))))
  rw [h6]
  refine ok_bind h4 ?_
  rw [h7]
  refine ok_bind h4 (ok_bind h4 ?_)
  rw [h8]
  exact h4
theorem fix_finalExp {k : Bool} {z : R12} (h1 : S12.powNegT k z = .ok z) (h2 : S12.conj z = z) (h3 : S12.inverse k z = .ok z)
    (h4 : S12.mulK k z z = .ok z) (h5 : S12.sqru z = .ok z) (h6 : S12.frobenius z = z) (h7 : S12.frobenius2 z = z)
    (h8 : S12.frobenius3 z = z) : S12.finalExp k z = .ok z := by
  unfold S12.finalExp
  exact ok_bind (fix_mapToCyclo h2 h3 h4 h7) (fix_hardPart h1 h2 h4 h5 h6 h7 h8)
theorem finalExp_zero (k : Bool) : S12.finalExp k z12 = .ok z12 :=
  fix_finalExp (fix_powNegT (powLoop_zero k) conj_zero) conj_zero (inverse_zero k) (mulK_zero k) sqru_zero f1_zero f2_zero f3_zero

/-- after a zero line f stays 0 -/
theorem loop_zero (hb : g.binv.SCan) (hx : P.1 < p) (hy : P.2 < p) (k : Bool) : ∀ tbl : List ℤ,
    Snark.millerLoop k g (z2, z2) P tbl (z12, zT) = .ok (z12, zT)
  | [] => rfl
  | s :: tbl => by
    obtain ⟨a, y, -, -, h1, h2⟩ := dbl_zero_line (P := P) hb hx hy z2_can
    obtain ⟨rfl, rfl⟩ := h2 rfl
    obtain ⟨l, -, h3, h4⟩ := add_zero_line (P := P) hx hy z2_can
    obtain rfl := h4 rfl
    have e1 : Snark.stepDbl k g P (z12, zT) = .ok (z12, zT) := by
      unfold Snark.stepDbl zT
      dsimp only
      rw [h1, Res.bind_ok, sq_zero, Res.bind_ok, m024_zero]; rfl
    have e2 : Snark.stepAdd (z2, z2) P (z12, zT) = .ok (z12, zT) := by
      unfold Snark.stepAdd zT
      dsimp only
      rw [h3, Res.bind_ok, m024_zero]; rfl
    have e3 : Snark.stepDigit (z2, z2) P s (z12, zT) = .ok (z12, zT) := by
      unfold Snark.stepDigit
      rw [neg_zero, e2]
      split
      · rfl
      · split <;> rfl
    unfold Snark.millerLoop
    rw [e1, Res.bind_ok, e3, Res.bind_ok, loop_zero hb hx hy k tbl]

theorem finish_zero (hx : P.1 < p) (hy : P.2 < p) (k : Bool) : Snark.finish k (z2, z2) P (z12, zT) = .ok z12 := by
  obtain ⟨l, -, h3, h4⟩ := add_zero_line (P := P) hx hy z2_can
  obtain rfl := h4 rfl
  unfold Snark.finish Snark.frobTwist2 zT
  rw [frob_zero, frob_zero]
  dsimp only
  rw [h3, Res.bind_ok, neg_zero]
  dsimp only
  rw [h3, Res.bind_ok, m024024_zero, mulK_zero]

/-- an element v of Fp2 times the square of the generator of Fp6: the square is within the range -/
theorem square_single {c : R2} (hc : c.SCan) (k : Bool) : ∃ y, S12.squareK k ⟨⟨z2, z2, c⟩, ⟨z2, z2, z2⟩⟩ = .ok y ∧ y.SCan := by
  have hx : (⟨⟨z2, z2, c⟩, ⟨z2, z2, z2⟩⟩ : R12).SCan := ⟨⟨z2_can, z2_can, hc⟩, z2_can, z2_can, z2_can⟩
  obtain ⟨t, e, t1, t2⟩ := S6.mulGammaAdd_den hx.2 hx.1
  obtain ⟨u1, u2⟩ := S6.add_den hx.1 hx.2
  rw [z6_den] at t2 u2
  have et : t = ⟨z2, z2, c⟩ := sden6_inj t1 hx.1 (by rw [t2, mul_zero, zero_add])
  have eu : S6.add ⟨z2, z2, c⟩ ⟨z2, z2, z2⟩ = ⟨z2, z2, c⟩ := sden6_inj u1 hx.1 (by rw [u2, add_zero])
  subst et
  have c1 : cb ⟨z2, z2, z2⟩ ⟨z2, z2, c⟩ < pN := by
    have : cb ⟨z2, z2, z2⟩ ⟨z2, z2, c⟩ = 0 := by unfold cb z2; simp
    rw [this]; decide +kernel
  have c2 : cb ⟨z2, z2, c⟩ ⟨z2, z2, c⟩ < pN := by
    have : cb ⟨z2, z2, c⟩ ⟨z2, z2, c⟩ = 0 := by unfold cb z2; simp
    rw [this]; decide +kernel
  obtain ⟨y, h1, h2, -⟩ := S12.square_den hx c1 (by
    intro t ht
    rw [e] at ht
    cases ht
    rw [eu]; exact c2)
  refine ⟨y, ?_, h2⟩
  unfold S12.squareK
  rw [e, Res.bind_ok, eu, if_neg fun h => h.2 ⟨c1, c2⟩, h1]

theorem mul_zero_line {f : R12} (hf : f.SCan) : S12.mul024 f ⟨z2, z2, z2⟩ = z12 := by
  obtain ⟨h1, h2⟩ := S12.mul024_den hf (show (⟨z2, z2, z2⟩ : R6).SCan from ⟨z2_can, z2_can, z2_can⟩)
  exact sden12_inj h1 z12_can (by rw [h2, z6_den, z12_den]; exact mul_zero _)

/-- the lines before the loop -/
theorem start_zero (hb : g.binv.SCan) (hx : P.1 < p) (hy : P.2 < p) :
    ∃ c, c.SCan ∧ Snark.start g (z2, z2) P = .ok (⟨⟨z2, z2, c⟩, ⟨z2, z2, z2⟩⟩, zT) := by
  obtain ⟨a, y, a1, y1, h1, -⟩ := dbl_zero_line (P := P) hb hx hy one_can
  obtain ⟨l, l1, h3, -⟩ := add_zero_line (P := P) hx hy y1
  obtain ⟨m1, m2⟩ := S12.mul024_024_den (x := ⟨a, z2, z2⟩) (y := ⟨z2, z2, l⟩) ⟨a1, z2_can, z2_can⟩ ⟨z2_can, z2_can, l1⟩
  have hc : (fm a l).SCan := mix_can _ _
  have hd : (fm a l).sden = a.sden * l.sden := (vfm ⟨a1, rfl⟩ ⟨l1, rfl⟩).2
  refine ⟨fm a l, hc, ?_⟩
  have e : S12.mul024_024 ⟨a, z2, z2⟩ ⟨z2, z2, l⟩ = ⟨⟨z2, z2, fm a l⟩, ⟨z2, z2, z2⟩⟩ := by
    refine sden12_inj m1 ⟨⟨z2_can, z2_can, hc⟩, z2_can, z2_can, z2_can⟩ ?_
    rw [m2]
    unfold R12.sden R6.sden G6.line
    dsimp only
    rw [z2_den, hd]
    refine G12.ext (G6.ext ?_ ?_ ?_) (G6.ext ?_ ?_ ?_) <;>
      simp [G12.mul_a, G12.mul_b, G6.mul_a, G6.mul_b, G6.mul_c, G6.add_a, G6.add_b, G6.add_c, G6.v_mul]
  unfold Snark.start
  rw [h1, Res.bind_ok]
  dsimp only
  rw [h3, Res.bind_ok, e]; rfl

/-- the whole loop on (0, 0) -/
theorem miller_zero (hb : g.binv.SCan) (hx : P.1 < p) (hy : P.2 < p) (k : Bool) : Snark.miller k g (z2, z2) P = .ok z12 := by
  obtain ⟨c, hc, h1⟩ := start_zero (P := P) hb hx hy
  obtain ⟨y, h2, h3⟩ := square_single hc k
  obtain ⟨a, t, -, -, h4, h5⟩ := dbl_zero_line (P := P) hb hx hy z2_can
  obtain ⟨rfl, rfl⟩ := h5 rfl
  obtain ⟨l, -, h6, h7⟩ := add_zero_line (P := P) hx hy z2_can
  obtain rfl := h7 rfl
  have e1 : Snark.stepDbl k g P (⟨⟨z2, z2, c⟩, ⟨z2, z2, z2⟩⟩, zT) = .ok (z12, zT) := by
    unfold Snark.stepDbl zT
    dsimp only
    rw [h4, Res.bind_ok, h2, Res.bind_ok, mul_zero_line h3]; rfl
  have e2 : Snark.stepAdd (z2, z2) P (z12, zT) = .ok (z12, zT) := by
    unfold Snark.stepAdd zT
    dsimp only
    rw [h6, Res.bind_ok, m024_zero]; rfl
  have e3 : ∀ s, Snark.stepDigit (z2, z2) P s (z12, zT) = .ok (z12, zT) := fun s => by
    unfold Snark.stepDigit
    rw [neg_zero, e2]
    split
    · rfl
    · split <;> rfl
  have e4 : ∀ tbl : List ℤ, tbl ≠ [] →
      Snark.millerLoop k g (z2, z2) P tbl (⟨⟨z2, z2, c⟩, ⟨z2, z2, z2⟩⟩, zT) = .ok (z12, zT) := by
    intro tbl ht
    cases tbl with
    | nil => exact absurd rfl ht
    | cons s tbl =>
      unfold Snark.millerLoop
      rw [e1, Res.bind_ok, e3, Res.bind_ok, loop_zero hb hx hy k tbl]
  unfold Snark.miller
  rw [h1, Res.bind_ok, e4 _ (by decide +kernel), Res.bind_ok, finish_zero hx hy]

end Fast
end Verif.Snark
