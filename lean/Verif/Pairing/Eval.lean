import Verif.Pairing.Light

/-! Points of the twist of the orders dividing the cofactor, and evaluations of the scalar multiplication model. -/

namespace Verif
open Fp Ec

theorem prime_650283223 : Nat.Prime 650283223 := by
  refine pockCheck_prime (a := 2) (qs := [123581]) (by decide +kernel) ?_
  intro x hx
  simp only [List.mem_cons, List.not_mem_nil, or_false] at hx
  rcases hx with rfl
  · norm_num

theorem prime_41107782849458509839349 : Nat.Prime 41107782849458509839349 := by
  refine pockCheck_prime (a := 2) (qs := [650283223, 627841]) (by decide +kernel) ?_
  intro x hx
  simp only [List.mem_cons, List.not_mem_nil, or_false] at hx
  rcases hx with rfl | rfl
  · exact prime_650283223
  · norm_num

theorem prime_44907893 : Nat.Prime 44907893 := by
  refine pockCheck_prime (a := 2) (qs := [387137]) (by decide +kernel) ?_
  intro x hx
  simp only [List.mem_cons, List.not_mem_nil, or_false] at hx
  rcases hx with rfl
  · norm_num

theorem prime_22377727 : Nat.Prime 22377727 := by
  refine pockCheck_prime (a := 2) (qs := [177601]) (by decide +kernel) ?_
  intro x hx
  simp only [List.mem_cons, List.not_mem_nil, or_false] at hx
  rcases hx with rfl
  · norm_num

theorem prime_54238436539805816093 : Nat.Prime 54238436539805816093 := by
  refine pockCheck_prime (a := 2) (qs := [44907893, 22377727]) (by decide +kernel) ?_
  intro x hx
  simp only [List.mem_cons, List.not_mem_nil, or_false] at hx
  rcases hx with rfl | rfl
  · exact prime_44907893
  · exact prime_22377727

theorem prime_26685229287263630037608821621757471303 : Nat.Prime 26685229287263630037608821621757471303 := by
  refine pockCheck_prime (a := 2) (qs := [54238436539805816093]) (by decide +kernel) ?_
  intro x hx
  simp only [List.mem_cons, List.not_mem_nil, or_false] at hx
  rcases hx with rfl
  · exact prime_54238436539805816093

theorem prime_324870732488110653643596210448312279829942671333 : Nat.Prime 324870732488110653643596210448312279829942671333 := by
  refine pockCheck_prime (a := 2) (qs := [26685229287263630037608821621757471303]) (by decide +kernel) ?_
  intro x hx
  simp only [List.mem_cons, List.not_mem_nil, or_false] at hx
  rcases hx with rfl
  · exact prime_26685229287263630037608821621757471303

/-- prime factors of the cofactor 2p - r of the twist -/
abbrev q3 : ℕ := 41107782849458509839349
abbrev q4 : ℕ := 324870732488110653643596210448312279829942671333

/-- points of the twist of order 13, 96757, q3, q4 -/
def tq1 : J F2 :=
  ⟨⟨feOf 8942265518276641016050814077138351143724959182040127188507574576721273914968,
    feOf 841373447170668794193351457650269817657672516201977359012356634580473959867⟩,
   ⟨feOf 1352382190293964450030777600597062312732484648556444565303033340984667148664,
    feOf 948133073660430152865443197120858587282880010254820881581809012834268961666⟩, 1⟩
def tq2 : J F2 :=
  ⟨⟨feOf 15735086229143633334436197226281841731915028258780558020074913190308269630886,
    feOf 16556133525250658184771355426751705154617828616893074330976105701869419886677⟩,
   ⟨feOf 3042610796812279507278811802576560631423818801973575299535245302023880416216,
    feOf 16092150272871358609747164025305614476177715519555741721930547527666363508327⟩, 1⟩
def tq3 : J F2 :=
  ⟨⟨feOf 955404279174850256287076465211851790878936942657959945786249423891626799622,
    feOf 15323378096186724226003345667277852289111623347595561075833863777753085034609⟩,
   ⟨feOf 6980335826370681056384255642081619008232758608960514284775829308633471227561,
    feOf 2681853669021548288731527720573189041902468106996552100849966894351770340008⟩, 1⟩
def tq4 : J F2 :=
  ⟨⟨feOf 14248723489669548738135025060033919666960188121831645930958748114089628735785,
    feOf 9146162379816145936109856730373981253879868920687604677255801720737296676458⟩,
   ⟨feOf 6946671551424027904098739276699358478054356139515735226739424973802309576276,
    feOf 11723188839206495758231520544861042169452534251276355797561994823519230025487⟩, 1⟩

theorem tq_valid : isValid2 tq1 = true ∧ isValid2 tq2 = true ∧ isValid2 tq3 = true ∧ isValid2 tq4 = true := by
  decide +kernel

/-- scalars as `Vuint` words -/
def w13 : List ℕ := [13]
def w96757 : List ℕ := [96757]
def wq3 : List ℕ := [8437053233628838901, 2228]
def wq4 : List ℕ := [3080122491197233125, 17859799140351684822, 954709276]
def wp : List ℕ := [12033618204333965331, 6998875295910461459, 13417434401994702856, 2676093114170474497]
def wr : List ℕ := [11601272640106397709, 18419581738456973328, 13417434401994702855, 2676093114170474497]

theorem w_spec : (WF w13 ∧ val w13 = 13) ∧ (WF w96757 ∧ val w96757 = 96757) ∧ (WF wq3 ∧ val wq3 = q3) ∧
    (WF wq4 ∧ val wq4 = q4) ∧ (WF wp ∧ val wp = p) ∧ (WF wr ∧ val wr = r) := by decide +kernel

set_option maxRecDepth 100000

open Light

/-- the points as plain residues -/
def l_tq1 : J L2 :=
  ⟨⟨8942265518276641016050814077138351143724959182040127188507574576721273914968,
    841373447170668794193351457650269817657672516201977359012356634580473959867⟩,
   ⟨1352382190293964450030777600597062312732484648556444565303033340984667148664,
    948133073660430152865443197120858587282880010254820881581809012834268961666⟩, ⟨1, 0⟩⟩
def l_tq2 : J L2 :=
  ⟨⟨15735086229143633334436197226281841731915028258780558020074913190308269630886,
    16556133525250658184771355426751705154617828616893074330976105701869419886677⟩,
   ⟨3042610796812279507278811802576560631423818801973575299535245302023880416216,
    16092150272871358609747164025305614476177715519555741721930547527666363508327⟩, ⟨1, 0⟩⟩
def l_tq3 : J L2 :=
  ⟨⟨955404279174850256287076465211851790878936942657959945786249423891626799622,
    15323378096186724226003345667277852289111623347595561075833863777753085034609⟩,
   ⟨6980335826370681056384255642081619008232758608960514284775829308633471227561,
    2681853669021548288731527720573189041902468106996552100849966894351770340008⟩, ⟨1, 0⟩⟩
def l_tq4 : J L2 :=
  ⟨⟨14248723489669548738135025060033919666960188121831645930958748114089628735785,
    9146162379816145936109856730373981253879868920687604677255801720737296676458⟩,
   ⟨6946671551424027904098739276699358478054356139515735226739424973802309576276,
    11723188839206495758231520544861042169452534251276355797561994823519230025487⟩, ⟨1, 0⟩⟩
def l_g2 : J L2 :=
  ⟨⟨12723517038133731887338407189719511622662176727675373276651903807414909099441,
    4168783608814932154536427934509895782246573715297911553964171371032945126671⟩,
   ⟨13891744915211034074451795021214165905772212241412891944830863846330766296736,
    7937318970632701341203597196594272556916396164729705624521405069090520231616⟩, ⟨1, 0⟩⟩
def l_g1 : J L1 := ⟨⟨p - 1⟩, ⟨1⟩, ⟨1⟩⟩

theorem l_tq1_eq : tq1 = h2.j l_tq1 := by decide +kernel
theorem l_tq2_eq : tq2 = h2.j l_tq2 := by decide +kernel
theorem l_tq3_eq : tq3 = h2.j l_tq3 := by decide +kernel
theorem l_tq4_eq : tq4 = h2.j l_tq4 := by decide +kernel
theorem l_g2_eq : g2 = h2.j l_g2 := by decide +kernel
theorem l_g1_eq : g1 = h1.j l_g1 := by decide +kernel

theorem tq1_ord : isInf (scalarMult tq1 w13) = true := inf2 l_tq1_eq (by decide +kernel)
theorem tq2_ord : isInf (scalarMult tq2 w96757) = true := inf2 l_tq2_eq (by decide +kernel)
theorem tq3_ord : isInf (scalarMult tq3 wq3) = true := inf2 l_tq3_eq (by decide +kernel)
theorem tq4_ord : isInf (scalarMult tq4 wq4) = true := inf2 l_tq4_eq (by decide +kernel)
theorem g2_ord : isInf (scalarMult g2 wr) = true := inf2 l_g2_eq (by decide +kernel)
theorem g1_ord : isInf (scalarMult g1 wr) = true := inf1 l_g1_eq (by decide +kernel)

def l_g2_frob : L2 × L2 :=
  (⟨12595200668306878671724070428214607709712653389689640071099207093060092311853,
    5507591660937003580528727541525764031712776750823836749701033091386587325103⟩,
   ⟨7186371638575574936021193212847801610733055824437956307935356444292137337806,
    15593040889234229905638222169050553072859612361443652529358120929068408016909⟩)
theorem l_g2_frob_eq : frobTwist1 g2.x g2.y = (h2.f l_g2_frob.1, h2.f l_g2_frob.2) := by decide +kernel
/-- φ on g2 is multiplication by p -/
theorem g2_frob : Ec.eq (scalarMult g2 wp) ⟨(frobTwist1 g2.x g2.y).1, (frobTwist1 g2.x g2.y).2, 1⟩ = true := by
  rw [l_g2_frob_eq]
  rw (occs := .pos [1]) [l_g2_eq]
  exact eqAff_scalarMult h2 l_g2 wp _ _ (by decide +kernel)

def l_tq1_frob : L2 × L2 :=
  (⟨11613324910626796587396791077814177538368334158991283628165286808502424994193,
    11065491417302094987194498598422207047158317465785530430185680803984950401180⟩,
   ⟨3973380180910170238546181902534957980597323814868349675942789545314795058735,
    14298362503163047650514543015623801656795437728984448787769640120790618330632⟩)
theorem l_tq1_frob_eq : frobTwist1 tq1.x tq1.y = (h2.f l_tq1_frob.1, h2.f l_tq1_frob.2) := by decide +kernel
/-- φ on the point of order 13 is multiplication by 7 -/
theorem tq1_frob : Ec.eq (scalarMult tq1 [7]) ⟨(frobTwist1 tq1.x tq1.y).1, (frobTwist1 tq1.x tq1.y).2, 1⟩ = true := by
  rw [l_tq1_frob_eq]
  rw (occs := .pos [1]) [l_tq1_eq]
  exact eqAff_scalarMult h2 l_tq1 [7] _ _ (by decide +kernel)

end Verif
