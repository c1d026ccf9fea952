import Verif.Snark.FinalDen
import Verif.Snark.Witness

/-!
Two concrete runs of the final exponentiation of the SNARK build.  The runs are evaluated with plain arithmetic modulo p
(`Fast`), which is proved to store the same buffers as the modelled routines as long as the checks of the checked run hold.
-/

namespace Verif.Snark

theorem sden12_inj {x y : R12} (hx : x.SCan) (hy : y.SCan) (h : x.sden = y.sden) : x = y := by
  obtain ⟨⟨a, b, c⟩, ⟨d, e, f⟩⟩ := x
  obtain ⟨⟨a', b', c'⟩, ⟨d', e', f'⟩⟩ := y
  have k := fun g : G12 → G2 => congrArg g h
  have e1 : a = a' := sden_inj hx.1.1 hy.1.1 (k fun t => t.a.a)
  have e2 : b = b' := sden_inj hx.1.2.1 hy.1.2.1 (k fun t => t.a.b)
  have e3 : c = c' := sden_inj hx.1.2.2 hy.1.2.2 (k fun t => t.a.c)
  have e4 : d = d' := sden_inj hx.2.1 hy.2.1 (k fun t => t.b.a)
  have e5 : e = e' := sden_inj hx.2.2.1 hy.2.2.1 (k fun t => t.b.b)
  have e6 : f = f' := sden_inj hx.2.2.2 hy.2.2.2 (k fun t => t.b.c)
  rw [e1, e2, e3, e4, e5, e6]

namespace Fast

/-- 2^(-256) mod p -/
def iR : ℕ := 20988524275117001072002809824448087578619730785600314334253784976379291040311
theorem iR_spec : iR * 2 ^ 256 % p = 1 := by decide +kernel
def redc (n : ℕ) : ℕ := n * iR % p
def pr (x y : R2) : R2 := ⟨x.a * y.a + (p - 1) * (x.b * y.b), x.a * y.b + x.b * y.a⟩
def ad (x y : R2) : R2 := ⟨x.a + y.a, x.b + y.b⟩
/-- lo + xi hi -/
def mix (lo hi : R2) : R2 := ⟨redc (lo.a + 9 * hi.a + (p - 1) * hi.b), redc (lo.b + 9 * hi.b + hi.a)⟩
def lin (k l : ℕ) (t z : R2) : R2 := ⟨(k * t.a + l * z.a) % p, (k * t.b + l * z.b) % p⟩

theorem iR_cast : (iR : ZMod p) = ((2 : ZMod p) ^ 256)⁻¹ := by
  have h : ((iR * 2 ^ 256 : ℕ) : ZMod p) = ((1 : ℕ) : ZMod p) := by
    rw [ZMod.natCast_eq_natCast_iff]
    show iR * 2 ^ 256 % p = 1 % p
    rw [iR_spec]; decide +kernel
  rw [Nat.cast_mul, Nat.cast_pow, Nat.cast_ofNat, Nat.cast_one] at h
  exact eq_inv_of_mul_eq_one_left h
theorem redc_lt (n : ℕ) : redc n < p := Nat.mod_lt _ p_pos
theorem residue_redc (n : ℕ) : residue (redc n) = residueD n := by
  unfold redc
  rw [S2.residue_mod]
  unfold residue residueD
  rw [Nat.cast_mul, iR_cast, show (2 : ZMod p) ^ 512 = 2 ^ 256 * 2 ^ 256 by rw [← pow_add]]
  have := two_pow_ne
  field_simp
theorem pm1 : ((p - 1 : ℕ) : ZMod p) = -1 := by
  rw [Nat.cast_sub p_pos, ZMod.natCast_self, Nat.cast_one, zero_sub]
theorem residueD_pm1 (n : ℕ) : residueD ((p - 1) * n) = -residueD n := by
  unfold residueD; rw [Nat.cast_mul, pm1]; ring
theorem residueD_9 (n : ℕ) : residueD (9 * n) = 9 * residueD n := by
  unfold residueD; rw [Nat.cast_mul, Nat.cast_ofNat]; ring
theorem residue_k (k n : ℕ) : residue (k * n) = k * residue n := by
  unfold residue; rw [Nat.cast_mul]; ring

theorem pr_den (x y : R2) : (pr x y).sdenD = x.sden * y.sden := by
  refine G2.ext ?_ ?_
  · rw [R2.sdenD_a, G2.mul_a]; unfold pr; dsimp only
    rw [residueD_add, residueD_pm1, residueD_mul, residueD_mul]; simp only [R2.sden]; ring
  · rw [R2.sdenD_b, G2.mul_b]; unfold pr; dsimp only
    rw [residueD_add, residueD_mul, residueD_mul]; simp only [R2.sden]
theorem ad_den (x y : R2) : (ad x y).sdenD = x.sdenD + y.sdenD :=
  G2.ext (residueD_add _ _) (residueD_add _ _)
theorem mix_can (lo hi : R2) : (mix lo hi).SCan := ⟨redc_lt _, redc_lt _⟩
theorem mix_den (lo hi : R2) : (mix lo hi).sden = lo.sdenD + G2.xi * hi.sdenD := by
  refine G2.ext ?_ ?_
  · rw [R2.sden_a, G2.add_a, G2.xi_mul_a]; unfold mix; dsimp only
    rw [residue_redc, residueD_add, residueD_add, residueD_pm1, residueD_9]; simp only [R2.sdenD]; ring
  · rw [R2.sden_b, G2.add_b, G2.xi_mul_b]; unfold mix; dsimp only
    rw [residue_redc, residueD_add, residueD_add, residueD_9]; simp only [R2.sdenD]; ring
theorem lin_can (k l : ℕ) (t z : R2) : (lin k l t z).SCan := ⟨Nat.mod_lt _ p_pos, Nat.mod_lt _ p_pos⟩
theorem lin_den (k l : ℕ) (t z : R2) : (lin k l t z).sden = k * t.sden + l * z.sden := by
  have ha : ∀ n : ℕ, ∀ x : G2, ((n : G2) * x).a = n * x.a := fun n x => by
    rw [G2.mul_a, G2.natCast_a, G2.natCast_b]; ring
  have hb : ∀ n : ℕ, ∀ x : G2, ((n : G2) * x).b = n * x.b := fun n x => by
    rw [G2.mul_b, G2.natCast_a, G2.natCast_b]; ring
  refine G2.ext ?_ ?_
  · rw [R2.sden_a, G2.add_a, ha, ha]; unfold lin; dsimp only
    rw [S2.residue_mod, residue_plus, residue_k, residue_k]; rfl
  · rw [R2.sden_b, G2.add_b, hb, hb]; unfold lin; dsimp only
    rw [S2.residue_mod, residue_plus, residue_k, residue_k]; rfl
theorem zero_denD : (⟨0, 0⟩ : R2).sdenD = 0 := by
  refine G2.ext ?_ ?_ <;> simp [R2.sdenD, residueD, G2.zero_a, G2.zero_b]

/-- schoolbook product in the basis 1, w, .., w^5 -/
def mul (x y : R12) : R12 :=
  let a0 := x.a.a; let a1 := x.b.a; let a2 := x.a.b; let a3 := x.b.b; let a4 := x.a.c; let a5 := x.b.c
  let b0 := y.a.a; let b1 := y.b.a; let b2 := y.a.b; let b3 := y.b.b; let b4 := y.a.c; let b5 := y.b.c
  let c0 := mix (pr a0 b0) (ad (pr a1 b5) (ad (pr a2 b4) (ad (pr a3 b3) (ad (pr a4 b2) (pr a5 b1)))))
  let c1 := mix (ad (pr a0 b1) (pr a1 b0)) (ad (pr a2 b5) (ad (pr a3 b4) (ad (pr a4 b3) (pr a5 b2))))
  let c2 := mix (ad (pr a0 b2) (ad (pr a1 b1) (pr a2 b0))) (ad (pr a3 b5) (ad (pr a4 b4) (pr a5 b3)))
  let c3 := mix (ad (pr a0 b3) (ad (pr a1 b2) (ad (pr a2 b1) (pr a3 b0)))) (ad (pr a4 b5) (pr a5 b4))
  let c4 := mix (ad (pr a0 b4) (ad (pr a1 b3) (ad (pr a2 b2) (ad (pr a3 b1) (pr a4 b0))))) (pr a5 b5)
  let c5 := mix (ad (pr a0 b5) (ad (pr a1 b4) (ad (pr a2 b3) (ad (pr a3 b2) (ad (pr a4 b1) (pr a5 b0)))))) ⟨0, 0⟩
  ⟨⟨c0, c2, c4⟩, ⟨c1, c3, c5⟩⟩

theorem mul_can (x y : R12) : (mul x y).SCan :=
  ⟨⟨mix_can _ _, mix_can _ _, mix_can _ _⟩, ⟨mix_can _ _, mix_can _ _, mix_can _ _⟩⟩
theorem mul_den (x y : R12) : (mul x y).sden = x.sden * y.sden := by
  rw [show x.sden = G12.mk6 x.a.a.sden x.b.a.sden x.a.b.sden x.b.b.sden x.a.c.sden x.b.c.sden from rfl,
    show y.sden = G12.mk6 y.a.a.sden y.b.a.sden y.a.b.sden y.b.b.sden y.a.c.sden y.b.c.sden from rfl, G12.mk6_mul]
  refine G12.ext (G6.ext ?_ ?_ ?_) (G6.ext ?_ ?_ ?_) <;>
    · refine (mix_den _ _).trans ?_
      simp only [ad_den, pr_den, zero_denD, G12.mk6]
      ring

def mulK (k : Bool) (x y : R12) : Res R12 :=
  if k = true ∧ ¬ (cb x.a y.a < pN ∧ cb x.b y.b < pN ∧ cb (S6.add x.a x.b) (S6.add y.a y.b) < pN) then .throw
  else .ok (mul x y)

theorem mulK_eq {x y : R12} (hx : x.SCan) (hy : y.SCan) : S12.mulK true x y = mulK true x y := by
  unfold S12.mulK mulK
  split
  · rfl
  · rename_i hc
    have hc : cb x.a y.a < pN ∧ cb x.b y.b < pN ∧ cb (S6.add x.a x.b) (S6.add y.a y.b) < pN := by
      by_contra h; exact hc ⟨rfl, h⟩
    obtain ⟨d, c1, c2, c3, c4, c5⟩ := S12.mul_den hx hy hc.1 hc.2.1
    rw [sden12_inj ⟨c1, c2, c3, c4, c5 hc.2.2⟩ (mul_can x y) (d.trans (mul_den x y).symm)]
theorem mulK_can {x y z : R12} (h : mulK true x y = .ok z) : z.SCan := by
  unfold mulK at h
  split at h
  · cases h
  · cases h; exact mul_can x y

/-- cyclotomic squaring -/
def sqru (x : R12) : R12 :=
  let m2 := 2 * (p - 1)
  let z0 := x.a.a; let z4 := x.a.b; let z3 := x.a.c; let z2 := x.b.a; let z1 := x.b.b; let z5 := x.b.c
  let d := fun u v : R2 => ad (pr u v) (pr u v)
  ⟨⟨lin 3 m2 (mix (pr z0 z0) (pr z1 z1)) z0, lin 3 m2 (mix (pr z2 z2) (pr z3 z3)) z4,
    lin 3 m2 (mix (pr z4 z4) (pr z5 z5)) z3⟩,
   ⟨lin 3 2 (mix ⟨0, 0⟩ (d z4 z5)) z2, lin 3 2 (mix (d z0 z1) ⟨0, 0⟩) z1, lin 3 2 (mix (d z2 z3) ⟨0, 0⟩) z5⟩⟩

theorem sqru_can (x : R12) : (sqru x).SCan :=
  ⟨⟨lin_can _ _ _ _, lin_can _ _ _ _, lin_can _ _ _ _⟩, ⟨lin_can _ _ _ _, lin_can _ _ _ _, lin_can _ _ _ _⟩⟩

theorem m2_cast : ((2 * (p - 1) : ℕ) : G2) = -2 := by
  refine G2.ext ?_ ?_
  · rw [G2.natCast_a, G2.neg_a, Nat.cast_mul, pm1]
    show _ = -((2 : ℕ) : G2).a
    rw [G2.natCast_a]; push_cast; ring
  · rw [G2.natCast_b, G2.neg_b]
    show _ = -((2 : ℕ) : G2).b
    rw [G2.natCast_b, neg_zero]

theorem sqru_eq {x : R12} (hx : x.SCan) : S12.sqru x = .ok (sqru x) := by
  obtain ⟨z, e, h1, h2⟩ := V12.sqru_den ⟨hx, rfl⟩
  rw [e]
  congr 1
  refine sden12_inj h1 (sqru_can x) (h2.trans ?_)
  refine G12.ext (G6.ext ?_ ?_ ?_) (G6.ext ?_ ?_ ?_) <;>
    · refine Eq.trans ?_ (lin_den _ _ _ _).symm
      simp only [mix_den, ad_den, pr_den, zero_denD, m2_cast]
      simp only [R12.sden, R6.sden, Nat.cast_ofNat]
      ring

theorem conj_can {x : R12} (hx : x.SCan) : (S12.conj x).SCan := (V12.conj ⟨hx, rfl⟩).1

def powDigit (x c : R12) (d : ℤ) (out : R12) : Res R12 :=
  if 0 < d then mulK true out x else if d < 0 then mulK true out c else .ok out

def powLoop (x c : R12) : List ℤ → R12 → Res R12
  | [], out => .ok out
  | d :: ds, out => do
    let out ← powDigit x c d (sqru out)
    powLoop x c ds out

theorem powDigit_eq {x c o : R12} (hx : x.SCan) (hc : c.SCan) (ho : o.SCan) (d : ℤ) :
    S12.powDigit true x c d o = powDigit x c d o := by
  unfold S12.powDigit powDigit
  rw [mulK_eq ho hx, mulK_eq ho hc]
theorem powDigit_can {x c o z : R12} (ho : o.SCan) {d : ℤ} (h : powDigit x c d o = .ok z) : z.SCan := by
  unfold powDigit at h
  split at h
  · exact mulK_can h
  · split at h
    · exact mulK_can h
    · cases h; exact ho

theorem bind_both {α β : Type} {m : Res α} {f g : α → Res β} {P : β → Prop}
    (h : ∀ a, m = .ok a → f a = g a ∧ ∀ z, g a = .ok z → P z) :
    m >>= f = m >>= g ∧ ∀ z, m >>= g = .ok z → P z := by
  cases m with
  | ok a => exact h a rfl
  | _ => exact ⟨rfl, fun z h => by cases h⟩

theorem powLoop_eq {x c : R12} (hx : x.SCan) (hc : c.SCan) (ds : List ℤ) : ∀ {o : R12}, o.SCan →
    S12.powLoop true x c ds o = powLoop x c ds o ∧ ∀ z, powLoop x c ds o = .ok z → z.SCan := by
  induction ds with
  | nil => exact fun ho => ⟨rfl, fun z h => by cases h; exact ho⟩
  | cons d ds ih =>
    intro o ho
    have h1 := sqru_can o
    rw [S12.powLoop, powLoop, sqru_eq ho, Res.bind_ok, powDigit_eq hx hc h1]
    exact bind_both fun a ha => ih (powDigit_can h1 ha)

def powNegT (x : R12) : Res R12 := do
  let out ← powLoop x (S12.conj x) (zReplTbl.drop 1) x
  pure (S12.conj out)

/-- the two computations are equal and a result is canonical -/
def Agree (m m' : Res R12) : Prop := m = m' ∧ ∀ z, m' = .ok z → z.SCan

theorem Agree.bind {m m' : Res R12} {f g : R12 → Res R12} (h : Agree m m') (hf : ∀ a, a.SCan → Agree (f a) (g a)) :
    Agree (m >>= f) (m' >>= g) := by
  obtain ⟨rfl, h⟩ := h
  exact bind_both fun a ha => hf a (h a ha)
theorem Agree.pure {x : R12} (hx : x.SCan) : Agree (Pure.pure x) (Pure.pure x) :=
  ⟨rfl, fun z h => by have : x = z := Res.ok.inj h
                      rw [← this]; exact hx⟩
theorem agree_mul {x y : R12} (hx : x.SCan) (hy : y.SCan) : Agree (S12.mulK true x y) (mulK true x y) :=
  ⟨mulK_eq hx hy, fun _ h => mulK_can h⟩
theorem agree_sqru {x : R12} (hx : x.SCan) : Agree (S12.sqru x) (.ok (sqru x)) :=
  ⟨sqru_eq hx, fun z h => by cases h; exact sqru_can x⟩
theorem agree_powNegT {x : R12} (hx : x.SCan) : Agree (S12.powNegT true x) (powNegT x) :=
  Agree.bind (powLoop_eq hx (conj_can hx) (zReplTbl.drop 1) hx) fun _ ha => Agree.pure (conj_can ha)

/-- `gammar[0..4]` -/
def g1 : ℕ → R2
  | 0 => ⟨1334504125441109323775816677333762124980877086439557453392802825656291576071, 7532670101108748540749979597679923402841328813027773483599019704565791010162⟩
  | 1 => ⟨11461073415658098971834280704587444395456423268720245247603935854280982113072, 17373957475705492831721812124331982823197004514106338927670775596783233550167⟩
  | 2 => ⟨16829996427371746075450799880956928810557034522864196246648550205375670302249, 20140510615310063345578764457068708762835443761990824243702724480509675468743⟩
  | 3 => ⟨9893659366031634526915473325149983243417508801286144596494093251884139331218, 16514792769865828027011044701859348114858257981779976519405133026725453154633⟩
  | 4 => ⟨8443299194457421137480282511969901974227997168695360756777672575877693116391, 21318636632361225103955470331868462398471880609949088574192481281746934874025⟩
  | _ => ⟨0, 0⟩
/-- `gammar2[0..4]` -/
def g2 : ℕ → R2
  | 0 => ⟨1881798392815877688876180778159931906057091683336018750908411925848733129714, 0⟩
  | 1 => ⟨17419166386535333598783630241015674584964973961482396687585055285806960741276, 0⟩
  | 2 => ⟨15537367993719455909907449462855742678907882278146377936676643359958227611562, 0⟩
  | 3 => ⟨20006444479023397533370224967097343182639219473961804911780625968796493078869, 0⟩
  | 4 => ⟨4469076485303941623462775504241600503731337195815426975103982608838265467307, 0⟩
  | _ => ⟨0, 0⟩
/-- `gammar3[0..4]` -/
def g3 : ℕ → R2
  | 0 => ⟨3649295186494431467217240962842301358951278585756714214031945394966344685949, 17372117152826387298350653207345606612066102743297871578090761045572893546809⟩
  | 1 => ⟨14543349330631744552586812320441124107441202078168618766450326117520897829805, 4646831431411403714092965637071058625728899792817054432901795759277546050476⟩
  | 2 => ⟨5058246444467529146795605864300346278139276634433627416040487689269555906334, 1747732256529211876667641288188566325860867395306999418986313414135550739840⟩
  | 3 => ⟨3025265262868802913511075437173590487338001780554453930995247874855578067679, 10425289180741305073643362413949631488281652900778689227251281048515799234257⟩
  | 4 => ⟨9862576063628467829192720579684130652367741026604221989510773554027227469215, 16681752610922605480353377694363181135019829138759259603037557916788351015335⟩
  | _ => ⟨0, 0⟩

theorem g1_0 : (power (⟨xiR, xiR_can⟩ : C2) pSub1Div6V).v = g1 0 := by decide +kernel
theorem g1_eq : gammar 0 = g1 0 ∧ gammar 1 = g1 1 ∧ gammar 2 = g1 2 ∧ gammar 3 = g1 3 ∧ gammar 4 = g1 4 := by
  have h0 : gammar 0 = g1 0 := g1_0
  have h1 : gammar 1 = g1 1 := by rw [gammar, g1_0, h0]; decide +kernel
  have h2 : gammar 2 = g1 2 := by rw [gammar, g1_0, h1]; decide +kernel
  have h3 : gammar 3 = g1 3 := by rw [gammar, g1_0, h2]; decide +kernel
  have h4 : gammar 4 = g1 4 := by rw [gammar, g1_0, h3]; decide +kernel
  exact ⟨h0, h1, h2, h3, h4⟩
theorem g2_eq : gammar2 0 = g2 0 ∧ gammar2 1 = g2 1 ∧ gammar2 2 = g2 2 ∧ gammar2 3 = g2 3 ∧ gammar2 4 = g2 4 := by
  obtain ⟨h0, h1, h2, h3, h4⟩ := g1_eq
  unfold gammar2
  rw [h0, h1, h2, h3, h4]; decide +kernel
theorem g3_eq : gammar3 0 = g3 0 ∧ gammar3 1 = g3 1 ∧ gammar3 2 = g3 2 ∧ gammar3 3 = g3 3 ∧ gammar3 4 = g3 4 := by
  obtain ⟨h0, h1, h2, h3, h4⟩ := g1_eq
  obtain ⟨k0, k1, k2, k3, k4⟩ := g2_eq
  unfold gammar3
  rw [h0, h1, h2, h3, h4, k0, k1, k2, k3, k4]; decide +kernel

def frobenius (x : R12) : R12 :=
  ⟨⟨S12.cj x.a.a, S2.mul (S12.cj x.a.b) (g1 1), S2.mul (S12.cj x.a.c) (g1 3)⟩,
   ⟨S2.mul (S12.cj x.b.a) (g1 0), S2.mul (S12.cj x.b.b) (g1 2), S2.mul (S12.cj x.b.c) (g1 4)⟩⟩
def frobenius2 (x : R12) : R12 :=
  ⟨⟨x.a.a, S2.mulFp0 x.a.b (g2 1).a, S2.mulFp0 x.a.c (g2 3).a⟩,
   ⟨S2.mulFp0 x.b.a (g2 0).a, S2.mulFp0 x.b.b (g2 2).a, S2.mulFp0 x.b.c (g2 4).a⟩⟩
def frobenius3 (x : R12) : R12 :=
  ⟨⟨S12.cj x.a.a, S2.mul (S12.cj x.a.b) (g3 1), S2.mul (S12.cj x.a.c) (g3 3)⟩,
   ⟨S2.mul (S12.cj x.b.a) (g3 0), S2.mul (S12.cj x.b.b) (g3 2), S2.mul (S12.cj x.b.c) (g3 4)⟩⟩
theorem frobenius_eq (x : R12) : S12.frobenius x = frobenius x := by
  obtain ⟨h0, h1, h2, h3, h4⟩ := g1_eq
  rw [S12.frobenius, frobenius, h0, h1, h2, h3, h4]
theorem frobenius2_eq (x : R12) : S12.frobenius2 x = frobenius2 x := by
  obtain ⟨h0, h1, h2, h3, h4⟩ := g2_eq
  rw [S12.frobenius2, frobenius2, h0, h1, h2, h3, h4]
theorem frobenius3_eq (x : R12) : S12.frobenius3 x = frobenius3 x := by
  obtain ⟨h0, h1, h2, h3, h4⟩ := g3_eq
  rw [S12.frobenius3, frobenius3, h0, h1, h2, h3, h4]
theorem frobenius_can {x : R12} (hx : x.SCan) : (S12.frobenius x).SCan := (V12.frobenius ⟨hx, rfl⟩).1
theorem frobenius2_can {x : R12} (hx : x.SCan) : (S12.frobenius2 x).SCan := (V12.frobenius2 ⟨hx, rfl⟩).1
theorem frobenius3_can {x : R12} (hx : x.SCan) : (S12.frobenius3 x).SCan := (V12.frobenius3 ⟨hx, rfl⟩).1

def mapToCyclo (k : Bool) (x : R12) : Res R12 := do
  let z := S12.conj x
  let this ← S12.inverse k x
  let z ← S12.mulK k z this
  let this := frobenius2 z
  S12.mulK k z this
theorem mapToCyclo_eq (k : Bool) (x : R12) : S12.mapToCyclo k x = mapToCyclo k x := by
  simp only [S12.mapToCyclo, mapToCyclo, frobenius2_eq]

def hardPart (f : R12) : Res R12 := do
  let f2z ← powNegT f
  let f2z ← .ok (sqru f2z)
  let f6z ← .ok (sqru f2z)
  let f6z ← mulK true f6z f2z
  let f6z2 ← powNegT f6z
  let a ← .ok (sqru f6z2)
  let f12z3 ← powNegT a
  let f6z := S12.conj f6z
  let f12z3 := S12.conj f12z3
  let a ← mulK true f12z3 f6z2
  let a ← mulK true a f6z
  let b ← mulK true a f2z
  let z ← mulK true a f6z2
  let z ← mulK true z f
  let f2z := frobenius b
  let z ← mulK true z f2z
  let f2z := frobenius2 a
  let z ← mulK true z f2z
  let f := S12.conj f
  let b ← mulK true b f
  let f2z := frobenius3 b
  mulK true z f2z

theorem agree_hardPart {f : R12} (hf : f.SCan) : Agree (S12.hardPart true f) (hardPart f) := by
  refine Agree.bind (agree_powNegT hf) fun u0 h0 => ?_
  refine Agree.bind (agree_sqru h0) fun f2z h1 => ?_
  refine Agree.bind (agree_sqru h1) fun u1 h2 => ?_
  refine Agree.bind (agree_mul h2 h1) fun f6z h3 => ?_
  refine Agree.bind (agree_powNegT h3) fun f6z2 h4 => ?_
  refine Agree.bind (agree_sqru h4) fun u2 h5 => ?_
  refine Agree.bind (agree_powNegT h5) fun f12z3 h6 => ?_
  refine Agree.bind (agree_mul (conj_can h6) h4) fun u3 h7 => ?_
  refine Agree.bind (agree_mul h7 (conj_can h3)) fun a h8 => ?_
  refine Agree.bind (agree_mul h8 h1) fun b h9 => ?_
  refine Agree.bind (agree_mul h8 h4) fun u4 h10 => ?_
  refine Agree.bind (agree_mul h10 hf) fun u5 h11 => ?_
  simp only [← frobenius_eq, ← frobenius2_eq, ← frobenius3_eq]
  refine Agree.bind (agree_mul h11 (frobenius_can h9)) fun u6 h12 => ?_
  refine Agree.bind (agree_mul h12 (frobenius2_can h8)) fun u7 h13 => ?_
  refine Agree.bind (agree_mul h9 (conj_can hf)) fun u8 h14 => ?_
  exact agree_mul h13 (frobenius3_can h14)

/-- an `ok` run with checks is the run without -/
def Mono (m : Bool → Res R12) : Prop := ∀ y, m true = .ok y → m false = .ok y
theorem Mono.bind {m : Bool → Res R12} {f : Bool → R12 → Res R12} (h : Mono m) (hf : ∀ a, Mono fun k => f k a) :
    Mono fun k => m k >>= f k := by
  intro y hy
  have hy : m true >>= f true = .ok y := hy
  show m false >>= f false = .ok y
  have h' := h
  unfold Mono at h'
  cases e : m true with
  | ok a => rw [e] at hy; rw [h a e]; exact hf a y hy
  | _ => rw [e] at hy; cases hy
theorem Mono.const (m : Res R12) : Mono fun _ => m := fun _ h => h
theorem mono_mul (x y : R12) : Mono fun k => S12.mulK k x y := by
  intro z h
  dsimp only at h ⊢
  unfold S12.mulK at h ⊢
  split at h
  · cases h
  · rw [if_neg (fun t => Bool.noConfusion t.1)]; exact h
theorem mono_digit (x c : R12) (d : ℤ) (o : R12) : Mono fun k => S12.powDigit k x c d o := by
  unfold S12.powDigit
  split
  · exact mono_mul _ _
  · split
    · exact mono_mul _ _
    · exact Mono.const _
theorem mono_loop (x c : R12) (ds : List ℤ) : ∀ o, Mono fun k => S12.powLoop k x c ds o := by
  induction ds with
  | nil => exact fun o => Mono.const _
  | cons d ds ih =>
    intro o
    refine Mono.bind (Mono.const _) fun a => Mono.bind (mono_digit _ _ _ _) fun b => ih b
theorem mono_powNegT (x : R12) : Mono fun k => S12.powNegT k x :=
  Mono.bind (mono_loop _ _ _ _) fun _ => Mono.const _
theorem mono_hardPart (f : R12) : Mono fun k => S12.hardPart k f := by
  refine Mono.bind (mono_powNegT _) fun u0 => ?_
  refine Mono.bind (Mono.const _) fun f2z => ?_
  refine Mono.bind (Mono.const _) fun u1 => ?_
  refine Mono.bind (mono_mul _ _) fun f6z => ?_
  refine Mono.bind (mono_powNegT _) fun f6z2 => ?_
  refine Mono.bind (Mono.const _) fun u2 => ?_
  refine Mono.bind (mono_powNegT _) fun f12z3 => ?_
  refine Mono.bind (mono_mul _ _) fun u3 => ?_
  refine Mono.bind (mono_mul _ _) fun a => ?_
  refine Mono.bind (mono_mul _ _) fun b => ?_
  refine Mono.bind (mono_mul _ _) fun u4 => ?_
  refine Mono.bind (mono_mul _ _) fun u5 => ?_
  refine Mono.bind (mono_mul _ _) fun u6 => ?_
  refine Mono.bind (mono_mul _ _) fun u7 => ?_
  refine Mono.bind (mono_mul _ _) fun u8 => ?_
  exact mono_mul _ _

end Fast

/-- operand of a wrong `mapToCyclo` -/
def badW : R12 :=
  ⟨⟨⟨11554273668579171282974702284340148298027975138200087874821964096014354649986, 5549123973154534152640024149798016007339483997468159426338137076098735459597⟩,
    ⟨14505694621205629227942531029746246063878796810533410042870887028907765566853, 13172129878184326562608853367054318770372646784377768192241821770876250914519⟩,
    ⟨18781729527125951631349022465938366342169072482369972204333731131642776864384, 7786642999143396324278896087786828921273150903723182385189496291238553657412⟩⟩,
   ⟨⟨69855861239668740899185913227490056920406836655022103490906960572149976617, 694904619675784240198489382178057568692198610729429509292212547505104095215⟩,
    ⟨61548220747685099177004000675483708616585925777072695160504446859516539977, 721537768362520176673840175406630450942855590381647639926444865759620773670⟩,
    ⟨30161752248844490279547491427557534032731571515057591370438486271206829880, 704531095819831061438690852265303419243337280770281935709340942250785469834⟩⟩⟩
/-- an operand within the bounds -/
def goodW : R12 :=
  ⟨⟨⟨2 ^ 200 + 1, 5⟩, ⟨3 ^ 100, 7⟩, ⟨9, 11⟩⟩, ⟨⟨12, 13 ^ 30⟩, ⟨2, 5 ^ 70⟩, ⟨6 ^ 60, 1⟩⟩⟩
/-- the buffer of 1 -/
def oneW : R12 := ⟨⟨⟨montR, 0⟩, ⟨0, 0⟩, ⟨0, 0⟩⟩, ⟨⟨0, 0⟩, ⟨0, 0⟩, ⟨0, 0⟩⟩⟩
/-- necessary for y conj(y) = 1 -/
def unitW (y : R12) : Bool :=
  decide ((p : ℤ) ∣ (oneW.a.a.a : ℤ) * 2 ^ 256 - exactA y (S12.conj y)) &&
    decide ((p : ℤ) ∣ (oneW.a.a.b : ℤ) * 2 ^ 256 - exactB y (S12.conj y))

theorem oneW_sden : oneW.sden = 1 := by
  have h0 : (⟨0, 0⟩ : R2).sden = 0 := G2.ext residue_zero residue_zero
  refine G12.ext (G6.ext one_sden h0 h0) (G6.ext h0 h0 h0)

theorem unitW_of {y : R12} (hy : y.SCan) (h : y.sden.conj * y.sden = 1) : unitW y = true := by
  have hc := (V12.conj (x := y) ⟨hy, rfl⟩).2
  have := exact_of_eq (w := oneW) (x := y) (y := S12.conj y) (by rw [hc, oneW_sden, mul_comm, h])
  rw [unitW, decide_eq_true this.1, decide_eq_true this.2]; rfl

theorem badW_can : badW.SCan := by decide +kernel
theorem goodW_can : goodW.SCan := by decide +kernel
theorem badW_run : (okAnd (Fast.mapToCyclo false badW) fun f => decide f.SCan && !unitW f &&
    okAnd (Fast.hardPart f) fun y => decide y.SCan && !unitW y) = true := by decide +kernel
theorem goodW_run : (okAnd (Fast.mapToCyclo true goodW) fun f => decide f.SCan && okAnd (Fast.hardPart f) fun _ => true) =
    true := by decide +kernel

theorem badW_final : ∃ f y, S12.mapToCyclo false badW = .ok f ∧ f.SCan ∧ unitW f = false ∧
    S12.finalExp false badW = .ok y ∧ y.SCan ∧ unitW y = false := by
  obtain ⟨f, e1, h⟩ := okAnd_iff badW_run
  rw [Bool.and_eq_true, Bool.and_eq_true, decide_eq_true_eq, Bool.not_eq_true'] at h
  obtain ⟨⟨hf, hu⟩, h⟩ := h
  obtain ⟨y, e2, h⟩ := okAnd_iff h
  rw [Bool.and_eq_true, decide_eq_true_eq, Bool.not_eq_true'] at h
  rw [← Fast.mapToCyclo_eq] at e1
  rw [← (Fast.agree_hardPart hf).1] at e2
  have e3 := Fast.mono_hardPart f y e2
  refine ⟨f, y, e1, hf, hu, ?_, h.1, h.2⟩
  rw [S12.finalExp, e1, Res.bind_ok]; exact e3

theorem goodW_final : ∃ y, S12.finalExp true goodW = .ok y := by
  obtain ⟨f, e1, h⟩ := okAnd_iff goodW_run
  rw [Bool.and_eq_true, decide_eq_true_eq] at h
  obtain ⟨y, e2, -⟩ := okAnd_iff h.2
  rw [← Fast.mapToCyclo_eq] at e1
  rw [← (Fast.agree_hardPart h.1).1] at e2
  refine ⟨y, ?_⟩
  rw [S12.finalExp, e1, Res.bind_ok]; exact e2

end Verif.Snark
