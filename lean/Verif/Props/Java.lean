import Verif.Java.Lemmas
import Verif.Pairing.Api

/-!
Property theorems C52: the Java-facing classes (java/bn254_if.hpp).

Vocabulary.  `run s cs` executes the calls `cs` on the objects `s` (Montgomery buffers, Jacobian triples whose
coordinates are normalised behind the caller's back, GMP limbs) and collects what they hand back.  `aRun b1 b2 e t cs` is
the same sequence read mathematically (Java/Spec.lean): integers, elements of the fields, points of the curves
y² = x³ + 2 and y² = x³ + 2/ξ with Mathlib's group law, e the pairing of points.  `Sim s t`: every object of s stands for
its value in t.  `Fits z`: z is within GMP's size limit of 2^31 - 1 limbs.
-/

namespace Verif
open Ec Java Pairing

/-- every object stands for its mathematical value -/
structure Sim (s : State) (t : AState E1.Point E2.Point) : Prop where
  mpz : s.mpz = t.mpz
  fits : ∀ k, Fits (t.mpz k)
  fp : s.fp = t.fp
  fp2 : s.fp2 = t.fp2
  fp12 : s.fp12 = t.fp12
  ec1 : ∀ k A, t.ec1 k = some A → Rep b1 (s.ec1 (ob k)) A
  ec2 : ∀ k B, t.ec2 k = some B → Rep b2 (s.ec2 (ob k)) B

theorem step_sim {e : E2.Point → E1.Point → F12}
    (he : ∀ {Q B P A}, Rep b2 Q B → Rep b1 P A → optAte Q P = e B A)
    {s : State} {t : AState E1.Point E2.Point} (h : Sim s t) (c : Call)
    {t' : AState E1.Point E2.Point} {out : Out} (ha : aStep b1 b2 e t c = some (t', out)) :
    ∃ s', step s c = .ok (s', out) ∧ Sim s' t' := by
  have hfit : ∀ k, Fits (s.mpz k) := fun k => by rw [h.mpz]; exact h.fits k
  have map1 : ∀ {α : Type} {x : Option (α × Out)} {g : α × Out → AState E1.Point E2.Point × Out},
      x.map g = some (t', out) → ∃ a o, x = some (a, o) ∧ g (a, o) = (t', out) := by
    intro α x g e
    rcases x with _ | ⟨a, o⟩
    · cases e
    · exact ⟨a, o, rfl, Option.some.inj e⟩
  cases c with
  | mpz c =>
    obtain ⟨a, o, e1, e2⟩ := map1 ha
    cases e2
    rw [← h.mpz] at e1
    obtain ⟨h1, h2⟩ := mpzStep_sim hfit c e1
    exact ⟨{ s with mpz := a }, by rw [step, h1, Res.bind_ok]; rfl, ⟨rfl, h2, h.fp, h.fp2, h.fp12, h.ec1, h.ec2⟩⟩
  | fp c =>
    obtain ⟨a, o, e1, e2⟩ := map1 ha
    cases e2
    rw [← h.mpz, ← h.fp] at e1
    have h1 := fStep_sim (eq := FF.eqb) LawfulFF.eqb_iff hfit s.fp c e1
    exact ⟨{ s with fp := a }, by rw [step, h1, Res.bind_ok]; rfl, ⟨h.mpz, h.fits, rfl, h.fp2, h.fp12, h.ec1, h.ec2⟩⟩
  | fpInt a i =>
    simp only [aStep] at ha
    split at ha
    · rename_i hi
      cases ha
      refine ⟨{ s with fp := upd s.fp a (i : Fe) }, by rw [step, feInt_eq hi.1 hi.2, Res.bind_ok]; rfl, ⟨h.mpz, h.fits, ?_, h.fp2, h.fp12, h.ec1, h.ec2⟩⟩
      dsimp only
      rw [upd_eq, h.fp]
    · cases ha
  | fp2 c =>
    obtain ⟨a, o, e1, e2⟩ := map1 ha
    cases e2
    rw [← h.mpz, ← h.fp2] at e1
    have h1 := fStep_sim (eq := FF.eqb) LawfulFF.eqb_iff hfit s.fp2 c e1
    exact ⟨{ s with fp2 := a }, by rw [step, h1, Res.bind_ok]; rfl, ⟨h.mpz, h.fits, h.fp, rfl, h.fp12, h.ec1, h.ec2⟩⟩
  | fp2Pair a x y =>
    simp only [aStep, Option.some.injEq] at ha
    cases ha
    refine ⟨_, rfl, ⟨h.mpz, h.fits, h.fp, ?_, h.fp12, h.ec1, h.ec2⟩⟩
    dsimp only
    rw [upd_eq, h.fp, h.fp2]
  | fp12 c =>
    obtain ⟨a, o, e1, e2⟩ := map1 ha
    cases e2
    rw [← h.mpz, ← h.fp12] at e1
    have h1 := fStep_sim (eq := F12.eq) F12.eq_iff hfit s.fp12 c e1
    exact ⟨{ s with fp12 := a }, by rw [step, h1, Res.bind_ok]; rfl, ⟨h.mpz, h.fits, h.fp, h.fp2, rfl, h.ec1, h.ec2⟩⟩
  | fp12Int a i =>
    simp only [aStep] at ha
    split at ha
    · rename_i hi
      cases ha
      refine ⟨{ s with fp12 := upd s.fp12 a ⟨⟨⟨(i : Fe), 0⟩, 0, 0⟩, 0⟩ }, by rw [step, feInt_eq hi.1 hi.2, Res.bind_ok]; rfl, ⟨h.mpz, h.fits, h.fp, h.fp2, ?_, h.ec1, h.ec2⟩⟩
      dsimp only
      rw [upd_eq, h.fp12]
      rfl
    · cases ha
  | pairing a q p =>
    simp only [aStep] at ha
    cases hB : t.ec2 q with
    | none => rw [hB] at ha; cases ha
    | some B =>
      rw [hB, Option.bind_some] at ha
      cases hA : t.ec1 p with
      | none => rw [hA] at ha; cases ha
      | some A =>
        rw [hA, Option.map_some] at ha
        cases ha
        refine ⟨_, rfl, ⟨h.mpz, h.fits, h.fp, h.fp2, ?_, fun k A' hk => normalizeAt_rep _ (h.ec1 k A' hk),
          fun k B' hk => normalizeAt_rep _ (h.ec2 k B' hk)⟩⟩
        dsimp only
        rw [upd_eq, h.fp12, he (h.ec2 q B hB) (h.ec1 p A hA)]
  | ec1 c =>
    obtain ⟨a, o, e1, e2⟩ := map1 ha
    cases e2
    rw [← h.mpz, ← h.fp] at e1
    obtain ⟨m', h1, h2⟩ := ecStep_sim good1 isValid1_iff hfit s.fp (m := s.ec1) h.ec1 c e1
    exact ⟨{ s with ec1 := m' }, by rw [step, h1, Res.bind_ok]; rfl, ⟨h.mpz, h.fits, h.fp, h.fp2, h.fp12, h2, h.ec2⟩⟩
  | ec2 c =>
    obtain ⟨a, o, e1, e2⟩ := map1 ha
    cases e2
    rw [← h.mpz, ← h.fp2] at e1
    obtain ⟨m', h1, h2⟩ := ecStep_sim good2 isValid2_iff hfit s.fp2 (m := s.ec2) h.ec2 c e1
    exact ⟨{ s with ec2 := m' }, by rw [step, h1, Res.bind_ok]; rfl, ⟨h.mpz, h.fits, h.fp, h.fp2, h.fp12, h.ec1, h2⟩⟩

theorem run_sim {e : E2.Point → E1.Point → F12}
    (he : ∀ {Q B P A}, Rep b2 Q B → Rep b1 P A → optAte Q P = e B A) (cs : List Call) :
    ∀ {s : State} {t t' : AState E1.Point E2.Point} {outs : List Out}, Sim s t →
      aRun b1 b2 e t cs = some (t', outs) → ∃ s', run s cs = .ok (s', outs) ∧ Sim s' t' := by
  induction cs with
  | nil => intro s t t' outs h ha; cases ha; exact ⟨s, rfl, h⟩
  | cons c cs ih =>
    intro s t t' outs h ha
    simp only [aRun] at ha
    cases h1 : aStep b1 b2 e t c with
    | none => rw [h1] at ha; cases ha
    | some r =>
      rw [h1, Option.bind_some] at ha
      cases h2 : aRun b1 b2 e r.1 cs with
      | none => rw [h2] at ha; cases ha
      | some r' =>
        rw [h2, Option.map_some] at ha
        cases ha
        obtain ⟨s1, e1, hs⟩ := step_sim he h c (t' := r.1) (out := r.2) h1
        obtain ⟨s2, e2, hs'⟩ := ih hs (t' := r'.1) (outs := r'.2) h2
        exact ⟨s2, by rw [run, e1, Res.bind_ok, e2, Res.bind_ok]; rfl, hs'⟩

/-- **C52** there is an e, bilinear and non-degenerate for the r-torsion of the twist and all of E1, such that
every sequence of calls that has a mathematical meaning, whatever objects it uses as arguments (the object called
included), runs to the end, hands back what the meaning says and leaves every object standing for its mathematical
value. -/
theorem C52_calls : ∃ e : E2.Point → E1.Point → F12,
    (∀ B B' A, r • B = 0 → r • B' = 0 → e (B + B') A = e B A * e B' A) ∧
    (∀ B A A', r • B = 0 → e B (A + A') = e B A * e B A') ∧
    (∀ B A, r • B = 0 → e B A = 1 → B = 0 ∨ A = 0) ∧
    ∀ (cs : List Call) (s : State) (t t' : AState E1.Point E2.Point) (outs : List Out), Sim s t →
      aRun b1 b2 e t cs = some (t', outs) → ∃ s', run s cs = .ok (s', outs) ∧ Sim s' t' := by
  refine ⟨fun B A => (pair B A : F12), fun B B' A hB hB' => ?_, fun B A A' hB => ?_, fun B A hB h => ?_,
    fun cs s t t' outs h ha => run_sim (fun hQ hP => optAte_rep hQ hP) cs h ha⟩
  · dsimp only; rw [pair_add_left hB hB', Units.val_mul]
  · dsimp only; rw [pair_add hB, Units.val_mul]
  · exact pair_eq_one hB (Units.ext h)

theorem fits_three : Fits 3 := by
  have : (limbs 3).length = 1 := by simp [limbs]
  unfold Fits; omega

-- a.add(a); a.mul(3); a.equals(b); f.pairing(q, a); b.set(x, y) with bad coordinates, from a state of real points
example (e : E2.Point → E1.Point → F12) : ∃ (s : State) (t t' : AState E1.Point E2.Point) (A : E1.Point) (B : E2.Point),
    Sim s t ∧ A ≠ 0 ∧ B ≠ 0 ∧
    aRun b1 b2 e t [.ec1 (.add 0 0), .ec1 (.mul 0 5), .ec1 (.equals 0 1), .pairing 0 0 0, .ec1 (.set2 1 0 0)] =
      some (t', [.unit, .unit, .bool (decide ((3 : ℤ) • (A + A) = A)), .unit, .thrown]) ∧
    t'.ec1 0 = some ((3 : ℤ) • (A + A)) ∧ t'.fp12 0 = e B ((3 : ℤ) • (A + A)) ∧ t'.ec1 1 = none := by
  obtain ⟨A, B, hA, hB, hA0, hB0, -⟩ := g_points
  refine ⟨⟨fun _ => 3, fun _ => 5, fun _ => 0, fun _ => 0, fun _ => g1, fun _ => g2⟩,
    ⟨fun _ => 3, fun _ => 5, fun _ => 0, fun _ => 0, fun _ => some A, fun _ => some B⟩,
    ⟨fun _ => 3, fun _ => 5, fun _ => 0, Function.update (fun _ => 0) 0 (e B ((3 : ℤ) • (A + A))),
      Function.update (Function.update (Function.update (fun _ => some A) 0 (some (A + A))) 0 (some ((3 : ℤ) • (A + A))))
        1 none, fun _ => some B⟩, A, B,
    ⟨rfl, fun _ => fits_three, rfl, rfl, rfl, ?_, ?_⟩, hA0, hB0, ?_, ?_, ?_, ?_⟩
  · intro k A' h; cases h; exact hA
  · intro k B' h; cases h; exact hB
  · have hj : jacPoint b1 (5 : Fe) 5 1 = none := by
      rw [jacPoint_none good1, ← isValid1_iff]
      decide +kernel
    simp [aRun, aStep, aEc, aSet, hj]
  all_goals simp

/-- **C52** a call with the object itself as argument: a.add(a), a.sub(a), a.mul(a), in each field and on points. -/
theorem C52_self (s : State) (k : ℕ) (A : E1.Point) (hA : Rep b1 (s.ec1 (ob k)) A) (B : E2.Point)
    (hB : Rep b2 (s.ec2 (ob k)) B) :
    (∃ s', step s (.fp (.add k k)) = .ok (s', .unit) ∧ s'.fp k = 2 * s.fp k) ∧
    (∃ s', step s (.fp (.sub k k)) = .ok (s', .unit) ∧ s'.fp k = 0) ∧
    (∃ s', step s (.fp2 (.mul k k)) = .ok (s', .unit) ∧ s'.fp2 k = s.fp2 k ^ 2) ∧
    (∃ s', step s (.fp12 (.mul k k)) = .ok (s', .unit) ∧ s'.fp12 k = s.fp12 k ^ 2) ∧
    (∃ s', step s (.ec1 (.add k k)) = .ok (s', .unit) ∧ Rep b1 (s'.ec1 (ob k)) (2 • A)) ∧
    (∃ s', step s (.ec1 (.sub k k)) = .ok (s', .unit) ∧ Rep b1 (s'.ec1 (ob k)) 0) ∧
    (∃ s', step s (.ec2 (.add k k)) = .ok (s', .unit) ∧ Rep b2 (s'.ec2 (ob k)) (2 • B)) ∧
    (∃ s', step s (.ec2 (.sub k k)) = .ok (s', .unit) ∧ Rep b2 (s'.ec2 (ob k)) 0) := by
  have hu : ∀ {α : Type} (f : ℕ → α) (v : α), upd f k v k = v := fun f v => if_pos rfl
  have h0 : (0 : ℕ) ≠ ob k := by unfold ob; omega
  refine ⟨⟨_, rfl, ?_⟩, ⟨_, rfl, ?_⟩, ⟨_, rfl, ?_⟩, ⟨_, rfl, ?_⟩, ⟨_, rfl, ?_⟩, ⟨_, rfl, ?_⟩, ⟨_, rfl, ?_⟩, ⟨_, rfl, ?_⟩⟩
  · exact (hu _ _).trans (two_mul _).symm
  · exact (hu _ _).trans (sub_self _)
  · exact (hu _ _).trans (sq _).symm
  · exact (hu _ _).trans (sq _).symm
  · dsimp only; rw [addAt_eq, put_same, two_nsmul]; exact rep_add good1 _ hA hA
  · dsimp only; rw [subAt_eq _ _ _ _ _ h0 h0, put_same, ← sub_self A]; exact rep_sub good1 _ hA hA
  · dsimp only; rw [addAt_eq, put_same, two_nsmul]; exact rep_add good2 _ hB hB
  · dsimp only; rw [subAt_eq _ _ _ _ _ h0 h0, put_same, ← sub_self B]; exact rep_sub good2 _ hB hB

/-- **C52** `power` and `mul` with a non-negative GMP integer of any size. -/
theorem C52_scalar {M : Type} [Monoid M] (x : M) {z : ℤ} (hz : 0 ≤ z) (hf : Fits z) (m : Mem Fe) {o t : ℕ} (ht : t ≠ o)
    {A : E1.Point} (hA : Rep b1 (m o) A) (m2 : Mem F2) {B : E2.Point} (hB : Rep b2 (m2 o) B) :
    powMpz x z = .ok (x ^ z.toNat) ∧
    (∃ m', scalarMultMpz m t o o z = .ok m' ∧ Rep b1 (m' o) (z • A) ∧ ∀ k, k ≠ t → k ≠ o → m' k = m k) ∧
    (∃ m', scalarMultMpz m2 t o o z = .ok m' ∧ Rep b2 (m' o) (z • B) ∧ ∀ k, k ≠ t → k ≠ o → m' k = m2 k) :=
  ⟨powMpz_eq x hz hf, scalarMultMpz_rep good1 m ht hz hf hA, scalarMultMpz_rep good2 m2 ht hz hf hB⟩

/-- **C52** finding: with a negative GMP integer `power` and `mul` have undefined behaviour, for every object:
`M_blockSize` converts the negative `_mp_size` to a huge `size_t` and the limbs are read out of range. -/
theorem C52_negative_ub (s : State) (k n : ℕ) (hz : s.mpz n < 0) (hf : Fits (s.mpz n)) :
    step s (.fp (.power k n)) = .ub ∧ step s (.fp2 (.power k n)) = .ub ∧ step s (.fp12 (.power k n)) = .ub ∧
    step s (.ec1 (.mul k n)) = .ub ∧ step s (.ec2 (.mul k n)) = .ub := by
  refine ⟨?_, ?_, ?_, ?_, ?_⟩
  · rw [step, fStep, powMpz_ub _ hz hf]; rfl
  · rw [step, fStep, powMpz_ub _ hz hf]; rfl
  · rw [step, fStep, powMpz_ub _ hz hf]; rfl
  · rw [step, ecStep, scalarMultMpz_ub _ _ _ _ hz hf]; rfl
  · rw [step, ecStep, scalarMultMpz_ub _ _ _ _ hz hf]; rfl

theorem fits_neg_one : Fits (-1) := by
  have : (limbs (-1)).length = 1 := by simp [limbs]
  unfold Fits; omega

-- (-1) times a point is undefined; 2^64 + 3 has two limbs and is covered by `C52_scalar`
example (s : State) : step { s with mpz := fun _ => -1 } (.ec1 (.mul 0 0)) = .ub ∧ limbs (2 ^ 64 + 3) = [3, 1] ∧
    Fits (2 ^ 64 + 3) := by
  have e : limbs (2 ^ 64 + 3) = [3, 1] := by norm_num [limbs]
  exact ⟨(C52_negative_ub { s with mpz := fun _ => -1 } 0 0 (by norm_num) fits_neg_one).2.2.2.1, e,
    by unfold Fits; rw [e]; norm_num⟩

/-- **C52** the arguments of `set` may be coordinates of point objects, handed out by `getX()` etc.: the point stored has
the coordinates read at entry, unless the second (or third) argument is a coordinate of the object itself that has been
overwritten by then. -/
theorem C52_set_refs {K : Type} [Field K] [FF K] (valid : J K → Bool) (m : Mem K) (o : ℕ) (x y z : Src K)
    (hy : y ≠ .x o) (hz : z ≠ .x o ∧ z ≠ .y o) :
    set2At valid m o x y = checked valid (m.put o ⟨x.read m, y.read m, 1⟩) o ∧
    set3At valid m o x y z = checked valid (m.put o ⟨x.read m, y.read m, z.read m⟩) o := by
  have e1 : y.read (m.setX o (x.read m)) = y.read m := by
    cases y with
    | obj v => rfl
    | x k =>
      have : k ≠ o := fun h => hy (by rw [h])
      simp only [Src.read, Mem.setX, if_neg this]
    | y k => simp only [Src.read, Mem.setX]; split <;> rfl
    | z k => simp only [Src.read, Mem.setX]; split <;> rfl
  have e2 : z.read ((m.setX o (x.read m)).setY o (y.read m)) = z.read m := by
    cases z with
    | obj v => rfl
    | x k =>
      have : k ≠ o := fun h => hz.1 (by rw [h])
      simp only [Src.read, Mem.setX, Mem.setY, if_neg this]
    | y k =>
      have : k ≠ o := fun h => hz.2 (by rw [h])
      simp only [Src.read, Mem.setX, Mem.setY, if_neg this]
    | z k =>
      simp only [Src.read, Mem.setX, Mem.setY]
      by_cases h : k = o <;> simp [h]
  have e3 : ∀ a b c : K, ((m.setX o a).setY o b).setZ o c = m.put o ⟨a, b, c⟩ := by
    intro a b c
    funext k
    unfold Mem.setX Mem.setY Mem.setZ Mem.put
    by_cases h : k = o <;> simp [h]
  constructor
  · unfold set2At; dsimp only; rw [e1, e3]
  · unfold set3At; dsimp only; rw [e1, e2, e3]

/-- **C52** finding: `P.set(P.getY(), P.getX())` stores (y, y) where (y, x) is meant. -/
theorem C52_set_own_coordinate (m : Mem Fe) (o : ℕ) :
    (set2At isValid1 m o (.y o) (.x o)).1 o = ⟨(m o).y, (m o).y, 1⟩ := by
  unfold set2At checked Mem.setX Mem.setY Mem.setZ
  simp [Src.read]

-- `P.set(P.getX(), P.getY())` is fine, `P.set(P.getY(), P.getX())` is not
example : (Src.y 4 : Src Fe) ≠ .x 4 ∧ (set2At isValid1 (fun _ => g1) 4 (.x 4) (.y 4)).2 = .unit ∧
    (set2At isValid1 (fun _ => g1) 4 (.y 4) (.x 4)).1 4 ≠ ⟨g1.y, g1.x, 1⟩ := by
  refine ⟨fun h => (by cases h), by decide +kernel, ?_⟩
  rw [C52_set_own_coordinate]
  decide +kernel

end Verif
