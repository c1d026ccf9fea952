import Verif.Snark.Den12

/-! Operands on which the SNARK `Fp6`/`Fp12` routines leave the range they assume. -/

namespace Verif.Snark

/-- real part of the product of two raw pairs -/
def re (x y : R2) : ℤ := x.a * y.a - x.b * y.b
/-- imaginary part -/
def im (x y : R2) : ℤ := x.a * y.b + x.b * y.a

/-- The Fp2 products multiplied by xi in the constant coefficient of an Fp12 product: real parts. -/
def xiRe (x y : R12) : ℤ :=
  re x.a.b y.a.c + re x.a.c y.a.b + (re x.b.a y.b.c + re x.b.b y.b.b + re x.b.c y.b.a)
/-- imaginary parts -/
def xiIm (x y : R12) : ℤ :=
  im x.a.b y.a.c + im x.a.c y.a.b + (im x.b.a y.b.c + im x.b.b y.b.b + im x.b.c y.b.a)

/-- the two parts of the constant coefficient, as integers scaled by 2^512 -/
def exactA (x y : R12) : ℤ := re x.a.a y.a.a + (9 * xiRe x y - xiIm x y)
def exactB (x y : R12) : ℤ := im x.a.a y.a.a + (9 * xiIm x y + xiRe x y)

theorem residue_scale (n : ℕ) : residue n * 2 ^ 512 = (n : ZMod p) * 2 ^ 256 := by
  unfold residue
  rw [show (2 : ZMod p) ^ 512 = 2 ^ 256 * 2 ^ 256 by rw [← pow_add]]
  have := two_pow_ne
  field_simp

theorem re_cast (x y : R2) : ((re x y : ℤ) : ZMod p) = (x.sden * y.sden).a * 2 ^ 512 := by
  unfold re
  rw [G2.mul_a, R2.sden_a, R2.sden_b, R2.sden_a, R2.sden_b]
  push_cast
  rw [cast_eq_residue x.a, cast_eq_residue x.b, cast_eq_residue y.a, cast_eq_residue y.b,
    show (2 : ZMod p) ^ 512 = 2 ^ 256 * 2 ^ 256 by rw [← pow_add]]
  ring
theorem im_cast (x y : R2) : ((im x y : ℤ) : ZMod p) = (x.sden * y.sden).b * 2 ^ 512 := by
  unfold im
  rw [G2.mul_b, R2.sden_a, R2.sden_b, R2.sden_a, R2.sden_b]
  push_cast
  rw [cast_eq_residue x.a, cast_eq_residue x.b, cast_eq_residue y.a, cast_eq_residue y.b,
    show (2 : ZMod p) ^ 512 = 2 ^ 256 * 2 ^ 256 by rw [← pow_add]]
  ring

/-- what a right product says about the integers in the constant coefficient -/
theorem exact_of_eq {w x y : R12} (h : w.sden = x.sden * y.sden) :
    (p : ℤ) ∣ (w.a.a.a : ℤ) * 2 ^ 256 - exactA x y ∧ (p : ℤ) ∣ (w.a.a.b : ℤ) * 2 ^ 256 - exactB x y := by
  have hc : w.a.a.sden = x.a.a.sden * y.a.a.sden +
      G2.xi * (x.a.b.sden * y.a.c.sden + x.a.c.sden * y.a.b.sden +
        (x.b.a.sden * y.b.c.sden + x.b.b.sden * y.b.b.sden + x.b.c.sden * y.b.a.sden)) := by
    have h1 : w.sden.a.a = (x.sden * y.sden).a.a := by rw [h]
    rw [G12.mul_a, G6.add_a, G6.v_mul, G6.mul_a, G6.mul_c] at h1
    simp only [R12.sden, R6.sden] at h1
    rw [h1]; ring
  constructor
  · rw [← ZMod.intCast_zmod_eq_zero_iff_dvd]
    have h1 := congrArg (fun t : G2 => t.a * 2 ^ 512) hc
    rw [R2.sden_a, residue_scale, G2.add_a, G2.xi_mul_a] at h1
    simp only [G2.add_a, G2.add_b] at h1
    rw [Int.cast_sub, Int.cast_mul, Int.cast_natCast, Int.cast_pow, Int.cast_ofNat, h1]
    unfold exactA xiRe xiIm
    simp only [Int.cast_add, Int.cast_sub, Int.cast_mul, Int.cast_ofNat]
    simp only [re_cast, im_cast]
    ring
  · rw [← ZMod.intCast_zmod_eq_zero_iff_dvd]
    have h1 := congrArg (fun t : G2 => t.b * 2 ^ 512) hc
    rw [R2.sden_b, residue_scale, G2.add_b, G2.xi_mul_b] at h1
    simp only [G2.add_a, G2.add_b] at h1
    rw [Int.cast_sub, Int.cast_mul, Int.cast_natCast, Int.cast_pow, Int.cast_ofNat, h1]
    unfold exactB xiRe xiIm
    simp only [Int.cast_add, Int.cast_mul, Int.cast_ofNat]
    simp only [re_cast, im_cast]
    ring

/-- operands of a wrong `Fp12::mul` -/
def badX : R12 :=
  ⟨⟨⟨3538406238044808898996142025434067486969993360239137431035785285245131221873, 13750245313532996140753517719351712118191734314709069670562629307475311632779⟩,
    ⟨1, 9144037800645736175545344885860948140321838009785317111499436910898472596047⟩,
    ⟨1, 1⟩⟩,
   ⟨⟨21804072952436127225653438438654621546990274618098206065921050057105637011367, 21066708450965112084317957399164645905713637439962698200670937244066625917407⟩,
    ⟨21860437575402387835482653771040020291172596101510865145261247326018272558259, 21041792230169046416636337005966161422108442765096993525349111769890652152565⟩,
    ⟨21772405390236405248535090354988613678065540859106482521036579886771948982182, 21214454541447510317497795478328213958581640334844173716034970547795990478100⟩⟩⟩
def badY : R12 :=
  ⟨⟨⟨1, 1959276822141417246266724126810889336479096106182408221456734064977148857212⟩,
    ⟨0, 0⟩,
    ⟨10018273058772925222248135486652660997623281815202336966587037586339396923002, 21575454671759288154040868247860585688393316413964404565945299850452271804282⟩⟩,
   ⟨⟨21811771957711212335352904650366885268177215989809540773847971282826110981930, 21118489206849611393468777749714116852310260012005099648319571379015682387301⟩,
    ⟨21731376071801866058977054699953285494321655523308407920768359861307031300311, 21176953685141108838458424825790831753779838989011531837737067599923954435174⟩,
    ⟨21672582982190459081488940425590459335733094573926975218377256470367752733951, 21068219550445149878152031543344987317474953448896930198914990858793381313558⟩⟩⟩
/-- operand of a wrong `Fp12::square` -/
def badZ : R12 :=
  ⟨⟨⟨21710644143752550817180148977701163106175840035947563852275679887082135461249, 21689708906062202378798840857876745162777193282354454929318764264539612987814⟩,
    ⟨21679229911217812838610018111182245286028334082122381149522186104125086712727, 21745435079565584849532266848072912853778737238098634783272172705303461433237⟩,
    ⟨21812625566379086456091418760792098527388257564582041593966885851457076230443, 21670650623591740429631837802137664493152672368800848535048436478644385739286⟩⟩,
   ⟨⟨21814863232254812713517809978084252127614983870823153868687540757863077999566, 21679436869568502794992743694005790526903019827774724704028576621447418884668⟩,
    ⟨21692223287634120020262647109020754103509337950404737177082541486106296184549, 21798440922492220637287210113161912813842860964897844876512098875006517848737⟩,
    ⟨21727768544305181409258124472569636133421615386979353470077426205898567272615, 21778733807411591958715509272892125499560969456550023959111909167427956432615⟩⟩⟩

theorem badX_can : badX.SCan := by decide +kernel
theorem badY_can : badY.SCan := by decide +kernel
theorem badZ_can : badZ.SCan := by decide +kernel

theorem bad_mul : ¬ (p : ℤ) ∣ ((S12.mul badX badY).a.a.a : ℤ) * 2 ^ 256 - exactA badX badY := by
  decide +kernel

/-- the outcome of a check on a result -/
def okAnd {α : Type} (r : Res α) (f : α → Bool) : Bool := match r with | .ok a => f a | _ => false

theorem okAnd_iff {α : Type} {r : Res α} {f : α → Bool} (h : okAnd r f = true) :
    ∃ a, r = .ok a ∧ f a = true := by
  cases r with
  | ok a => exact ⟨a, rfl, h⟩
  | _ => cases h

theorem bad_square : okAnd (S12.square badZ) (fun w =>
    decide (¬ (p : ℤ) ∣ (w.a.a.b : ℤ) * 2 ^ 256 - exactB badZ badZ)) = true := by decide +kernel

/-- operands of an `Fp6::mul` with an unreduced result -/
def bad6X : R6 := ⟨⟨p - 7, p - 1⟩, ⟨p - 7, p - 1⟩, ⟨p - 7, p - 1⟩⟩
def bad6Y : R6 := ⟨⟨p - 1, p - 1⟩, ⟨p - 1, p - 1⟩, ⟨p - 1, p - 1⟩⟩

theorem bad6 : bad6X.SCan ∧ bad6Y.SCan ∧ p ≤ (S6.mul bad6X bad6Y).c.b := by decide +kernel

end Verif.Snark
