import Verif.Snark.PairRun

/-! SNARK build: the pairing after `init` with SNARK2 and later with SNARK1. -/

namespace Verif.Snark

/-- a checked run that ends normally is a run of the code -/
def Mono {α : Type} (m : Bool → Res α) : Prop := ∀ y, m true = .ok y → m false = .ok y

namespace Mono
variable {α β : Type}

theorem const (m : Res α) : Mono fun _ => m := fun _ h => h
theorem bind {m : Bool → Res α} (h : Mono m) {g : Bool → α → Res β} (hg : ∀ a, Mono fun k => g k a) :
    Mono fun k => m k >>= g k := by
  intro y e
  dsimp only at e ⊢
  cases hm : m true with
  | ok a => rw [hm] at e; rw [h a hm]; exact hg a y e
  | _ => rw [hm] at e; cases e
theorem cond {q : Prop} [Decidable q] {m : Res α} : Mono fun k => if k = true ∧ ¬ q then .throw else m := by
  intro y e
  dsimp only at e ⊢
  rw [if_neg fun t => Bool.noConfusion t.1]
  split at e
  · cases e
  · exact e

theorem mulK (x y : R12) : Mono fun k => S12.mulK k x y := cond
theorem mulK6 (x y : R6) : Mono fun k => S6.mulK k x y := cond
theorem squareK (x : R12) : Mono fun k => S12.squareK k x := bind (const _) fun _ => cond
theorem inverse (x : R12) : Mono fun k => S12.inverse k x :=
  bind (const _) fun _ => bind (const _) fun _ => bind (const _) fun _ => bind (const _) fun _ => bind (mulK6 _ _) fun _ =>
    bind (mulK6 _ _) fun _ => const _
theorem mapToCyclo (x : R12) : Mono fun k => S12.mapToCyclo k x :=
  bind (inverse _) fun _ => bind (mulK _ _) fun _ => mulK _ _
theorem powDigit (x c : R12) (d : ℤ) (o : R12) : Mono fun k => S12.powDigit k x c d o := by
  unfold S12.powDigit
  split
  · exact mulK _ _
  · split
    · exact mulK _ _
    · exact const _
theorem powLoop (x c : R12) : ∀ (l : List ℤ) (o : R12), Mono fun k => S12.powLoop k x c l o
  | [], _ => const _
  | _ :: l, _ => bind (const _) fun _ => bind (powDigit _ _ _ _) fun _ => powLoop x c l _
theorem powNegT (x : R12) : Mono fun k => S12.powNegT k x := bind (powLoop _ _ _ _) fun _ => const _
theorem hardPart (x : R12) : Mono fun k => S12.hardPart k x := by
  unfold S12.hardPart
  refine bind (powNegT _) fun _ => bind (const _) fun _ => bind (const _) fun _ => bind (mulK _ _) fun _ =>
    bind (powNegT _) fun _ => bind (const _) fun _ => bind (powNegT _) fun _ => ?_
  refine bind (mulK _ _) fun _ => bind (mulK _ _) fun _ => bind (mulK _ _) fun _ => bind (mulK _ _) fun _ =>
    bind (mulK _ _) fun _ => ?_
  exact bind (mulK _ _) fun _ => bind (mulK _ _) fun _ => bind (mulK _ _) fun _ => mulK _ _
theorem finalExp (x : R12) : Mono fun k => S12.finalExp k x := bind (mapToCyclo _) fun _ => hardPart _
theorem stepDbl (g : Cfg) (P : ℕ × ℕ) (st : R12 × T3) : Mono fun k => Snark.stepDbl k g P st :=
  bind (const _) fun _ => bind (squareK _) fun _ => const _
theorem millerLoop (g : Cfg) (Q : R2 × R2) (P : ℕ × ℕ) : ∀ (l : List ℤ) (st : R12 × T3),
    Mono fun k => Snark.millerLoop k g Q P l st
  | [], _ => const _
  | d :: l, st => bind (m := fun k => Snark.stepDbl k g P st) (stepDbl g P st)
    (g := fun k st => Snark.stepDigit Q P d st >>= Snark.millerLoop k g Q P l) fun _ =>
      bind (const _) fun st => millerLoop g Q P l st
theorem optAte (g : Cfg) (Q : R2 × R2) (P : ℕ × ℕ) : Mono fun k => Snark.optAte k g Q P :=
  bind (bind (const _) fun _ => bind (millerLoop _ _ _ _ _) fun _ => bind (const _) fun _ => bind (const _) fun _ => mulK _ _)
    fun _ => finalExp _

end Mono

theorem b82_run (l : List Curve) (hl : l ≠ []) (hh : l.head hl = .snark2) : ∃ s, St.start.run l = .ok s ∧ s.binv.SCan ∧
    s.b82 = true := by
  obtain ⟨c, l', rfl⟩ : ∃ c l', l = c :: l' := by cases l with | nil => exact absurd rfl hl | cons c l' => exact ⟨c, l', rfl⟩
  obtain rfl : c = .snark2 := hh
  obtain ⟨s, e, k1, k2, k3, k4, k5⟩ := St.start.init_ok .snark2
  rcases List.eq_nil_or_concat l' with rfl | ⟨cs, d, rfl⟩
  · refine ⟨s, ?_, k4, k2⟩
    simp only [St.run]; rw [e]; rfl
  · simp only [List.concat_eq_append] at hl ⊢
    obtain ⟨s', e', -, m2, -, m4, m5⟩ := St.run_started k1 cs d
    refine ⟨s', ?_, m4, m2.trans k2⟩
    simp only [St.run]; rw [e, Res.bind_ok]; exact e'

namespace Pr

/-- buffers of twice the point (1, 2) of SNARK1 -/
def bufP2 : ℕ × ℕ :=
  (8654814696072170856587955012069333170494886301524278494792026145786685811256,
   1986477534175554133820142696889040926415532542890851718407265643285157051719)

/-- with the factor of SNARK2, the pairing with 2P is not the square of the pairing with P -/
theorem run_wrong : okAnd (Fast.optAte (bufB .snark2) (bufQ .snark1) (bufP .snark1)) (fun y =>
    okAnd (Fast.optAte (bufB .snark2) (bufQ .snark1) bufP2) fun y' => decide (Fast.mul y y ≠ y')) = true := by
  decide +kernel

open Verif.Ec
open WeierstrassCurve.Affine (Point)

theorem bufP2_val : bufP2.1 < p ∧ bufP2.2 < p ∧ 16 * residue bufP2.1 = -23 ∧ 64 * residue bufP2.2 = -11 := by
  have h1 : bufP2.1 = toMont 1368015179489954701390400359078579693043519447331113978918064868415326638035 := by decide +kernel
  have h2 : bufP2.2 = toMont 9918110051302171585080402603319702774565515993150576347155970296011118125764 := by decide +kernel
  refine ⟨by decide +kernel, by decide +kernel, ?_, ?_⟩
  · rw [h1, residue_toMont (by decide +kernel)]
    have := (ZMod.natCast_eq_zero_iff (16 * 1368015179489954701390400359078579693043519447331113978918064868415326638035 + 23) p).2
      (by decide +kernel)
    push_cast at this ⊢
    linear_combination this
  · rw [h2, residue_toMont (by decide +kernel)]
    have := (ZMod.natCast_eq_zero_iff (64 * 9918110051302171585080402603319702774565515993150576347155970296011118125764 + 11) p).2
      (by decide +kernel)
    push_cast at this ⊢
    linear_combination this

theorem bufP2_pt {b : ZMod p} (hg : Good b) (hb : b = 3) : ∃ (h1 : (curve b).Nonsingular (residue (bufP .snark1).1) (residue (bufP .snark1).2))
    (h2 : (curve b).Nonsingular (residue bufP2.1) (residue bufP2.2)),
    (Point.some _ _ h2 : (curve b).Point) = Point.some _ _ h1 + Point.some _ _ h1 := by
  obtain ⟨-, -, e1, e2⟩ := bufP2_val
  have v := bufP_val .snark1
  have ex : residue (bufP .snark1).1 = 1 := v.ex.trans Nat.cast_one
  have ey : residue (bufP .snark1).2 = 2 := v.ey.trans Nat.cast_two
  have two : (2 : ZMod p) ≠ 0 := hg.two
  have four : (4 : ZMod p) ≠ 0 := by rw [show (4 : ZMod p) = 2 * 2 by norm_num]; exact mul_ne_zero two two
  rw [ex, ey]
  have h1 : (curve b).Nonsingular (1 : ZMod p) 2 := (curve_nonsingular hg _ _).2 (by rw [hb]; norm_num)
  obtain ⟨h2, h3⟩ := add_self_aux hg h1 two
  have q : 3 * (1 : ZMod p) ^ 2 / (2 * 2) = 3 / 4 := by norm_num
  have x : residue bufP2.1 = (3 * (1 : ZMod p) ^ 2 / (2 * 2)) ^ 2 - 2 * 1 := by
    rw [q]; field_simp; linear_combination e1
  have y : residue bufP2.2 = -(3 * (1 : ZMod p) ^ 2 / (2 * 2) * ((3 * (1 : ZMod p) ^ 2 / (2 * 2)) ^ 2 - 3 * 1) + 2) := by
    rw [q]; field_simp; linear_combination e2
  rw [x, y]
  exact ⟨h1, h2, h3.symm⟩

theorem run_wrong_model {g : Cfg} (hc : g.binv.SCan) (hb : g.b82 = true) : ∃ y y',
    optAte false g (bufQ .snark1) (bufP .snark1) = .ok y ∧ optAte false g (bufQ .snark1) bufP2 = .ok y' ∧
    y'.sden ≠ y.sden ^ 2 := by
  obtain ⟨y, e, h⟩ := okAnd_iff run_wrong
  obtain ⟨y', e', h⟩ := okAnd_iff h
  have hf : V2 (beta g.b82 g.binv) (bufB .snark2) := by
    refine ⟨(bufB_fit .snark2).can, mul_left_cancel₀ xi_ne ((bufB_fit .snark2).fac.trans ?_)⟩
    unfold beta; rw [hb, if_pos rfl, xi_nine]; rfl
  have q := bufQ_can .snark1
  obtain ⟨k, -⟩ := Fast.optAte_sim hc hf (bufP_lt .snark1).1 (bufP_lt .snark1).2 q.1 q.2 y e
  obtain ⟨k', c⟩ := Fast.optAte_sim hc hf bufP2_val.1 bufP2_val.2.1 q.1 q.2 y' e'
  refine ⟨y, y', Mono.optAte _ _ _ y k, Mono.optAte _ _ _ y' k', fun t => ?_⟩
  rw [pow_two, ← Fast.mul_den] at t
  exact of_decide_eq_true h (sden12_inj c (Fast.mul_can _ _) t).symm

end Pr
end Verif.Snark
