import Verif.Sint.Model
import Verif.Vuint.DivLemmas
import Verif.Vuint.Shift
import Mathlib.Tactic.Linarith
import Mathlib.Data.Int.Basic
import Verif.Util.Bits

/-! `Vsint` operations against the integers.  Every operation on the memory is shown to store a value that depends only
on the operands (`*P`), then the values are compared. -/

namespace Verif.Sint

open Verif

theorem setV_neg (m : Mem) (i : ℕ) (v : List ℕ) (j : ℕ) : (setV m i v j).neg = (m j).neg := by
  unfold setV
  by_cases h : j = i
  · subst h; rw [Function.update_self]
  · rw [Function.update_of_ne h]

theorem setNeg_setV (m : Mem) (i : ℕ) (v : List ℕ) (b : Bool) : setNeg (setV m i v) i b = Function.update m i ⟨v, b⟩ := by
  unfold setNeg setV
  rw [Function.update_idem, Function.update_self]

theorem toInt_pos (v : List ℕ) : toInt ⟨v, false⟩ = val v := rfl
theorem toInt_neg (v : List ℕ) : toInt ⟨v, true⟩ = -(val v : ℤ) := rfl

/-- store a value -/
def store (m : Mem) (out : ℕ) (r : Res Sint) : Res Mem := r >>= fun z => .ok (Function.update m out z)

theorem store_map {m : Mem} {out : ℕ} (r : Res (List ℕ)) (b : Bool) :
    (r >>= fun v => pure (setNeg (setV m out v) out b)) = store m out (r >>= fun v => .ok ⟨v, b⟩) := by
  cases r with
  | ok v => unfold store; rw [Res.bind_ok, Res.bind_ok, Res.bind_ok, setNeg_setV]; rfl
  | _ => rfl

def addP (a b : Sint) : Res Sint :=
  if (a.neg ^^ b.neg) = false then Vuint.add a.v b.v >>= fun v => .ok ⟨v, a.neg⟩
  else if Vuint.compare a.v b.v ≥ 0 then Vuint.sub a.v b.v >>= fun v => .ok ⟨v, a.neg⟩
  else Vuint.sub b.v a.v >>= fun v => .ok ⟨v, b.neg⟩

theorem add_eq (m : Mem) (out x y : ℕ) : add m out x y = store m out (addP (m x) (m y)) := by
  unfold add addP
  dsimp only
  simp only [setV_neg]
  split_ifs <;> exact store_map _ _

def subP (a b : Sint) : Res Sint :=
  if a.neg ^^ b.neg then Vuint.add a.v b.v >>= fun v => .ok ⟨v, a.neg⟩
  else if Vuint.compare a.v b.v ≥ 0 then Vuint.sub a.v b.v >>= fun v => .ok ⟨v, a.neg⟩
  else Vuint.sub b.v a.v >>= fun v => .ok ⟨v, !b.neg⟩

theorem sub_eq (m : Mem) (out x y : ℕ) : sub m out x y = store m out (subP (m x) (m y)) := by
  unfold sub subP
  dsimp only
  simp only [setV_neg]
  split_ifs <;> exact store_map _ _

def mulP (a b : Sint) : Res Sint := Vuint.mul a.v b.v >>= fun v => .ok ⟨v, a.neg ^^ b.neg⟩

theorem mul_eq (m : Mem) (out x y : ℕ) : mul m out x y = store m out (mulP (m x) (m y)) := by
  unfold mul mulP
  dsimp only
  simp only [setV_neg]
  exact store_map _ _

theorem addP_spec {a b : Sint} (ha : WF a.v) (hb : WF b.v) :
    ((toInt a + toInt b).natAbs < B64 ^ 9 → ∃ z, addP a b = .ok z ∧ WF z.v ∧ toInt z = toInt a + toInt b) ∧
    (B64 ^ 9 ≤ (toInt a + toInt b).natAbs → addP a b = .exit) := by
  obtain ⟨v, n⟩ := a
  obtain ⟨w, k⟩ := b
  dsimp only at ha hb
  have a1 := Vuint.add_spec ha hb
  have s1 := (Vuint.sub_spec ha hb).1
  have s2 := (Vuint.sub_spec hb ha).1
  have hv := lt_of_lt_of_le ha.val_lt (Nat.pow_le_pow_right (by norm_num : 0 < B64) ha.len)
  have hw := lt_of_lt_of_le hb.val_lt (Nat.pow_le_pow_right (by norm_num : 0 < B64) hb.len)
  have hc := cmp_spec ha hb
  unfold addP
  dsimp only
  unfold Vuint.compare
  generalize hC : B64 ^ 9 = C at a1 hv hw ⊢
  cases n <;> cases k <;> simp only [Bool.xor_false, Bool.xor_true, Bool.not_false, Bool.not_true, Bool.true_eq_false, if_true, if_false, toInt_pos, toInt_neg]
  · refine ⟨fun h => ?_, fun h => ?_⟩
    · obtain ⟨z, e, wz, vz⟩ := a1.1 (by omega)
      exact ⟨⟨z, false⟩, by rw [e]; rfl, wz, by rw [toInt_pos, vz]; push_cast; ring⟩
    · rw [a1.2 (by omega)]; rfl
  · refine ⟨fun h => ?_, fun h => by omega⟩
    by_cases hle : val w ≤ val v
    · obtain ⟨z, e, wz, vz⟩ := s1 hle
      clear s1 s2 a1
      rw [if_pos (by omega)]
      exact ⟨⟨z, false⟩, by rw [e]; rfl, wz, by rw [toInt_pos, vz]; omega⟩
    · obtain ⟨z, e, wz, vz⟩ := s2 (by omega)
      clear s1 s2 a1
      rw [if_neg (by omega)]
      exact ⟨⟨z, true⟩, by rw [e]; rfl, wz, by rw [toInt_neg, vz]; omega⟩
  · refine ⟨fun h => ?_, fun h => by omega⟩
    by_cases hle : val w ≤ val v
    · obtain ⟨z, e, wz, vz⟩ := s1 hle
      clear s1 s2 a1
      rw [if_pos (by omega)]
      exact ⟨⟨z, true⟩, by rw [e]; rfl, wz, by rw [toInt_neg, vz]; omega⟩
    · obtain ⟨z, e, wz, vz⟩ := s2 (by omega)
      clear s1 s2 a1
      rw [if_neg (by omega)]
      exact ⟨⟨z, false⟩, by rw [e]; rfl, wz, by rw [toInt_pos, vz]; omega⟩
  · refine ⟨fun h => ?_, fun h => ?_⟩
    · obtain ⟨z, e, wz, vz⟩ := a1.1 (by omega)
      exact ⟨⟨z, true⟩, by rw [e]; rfl, wz, by rw [toInt_neg, vz]; push_cast; ring⟩
    · rw [a1.2 (by omega)]; rfl

theorem subP_eq {a b : Sint} : subP a b = addP a ⟨b.v, !b.neg⟩ := by
  unfold subP addP
  obtain ⟨v, n⟩ := a
  obtain ⟨w, k⟩ := b
  cases n <;> cases k <;> rfl

theorem toInt_not (b : Sint) : toInt ⟨b.v, !b.neg⟩ = -toInt b := by
  obtain ⟨w, k⟩ := b
  cases k <;> simp [toInt]

theorem subP_spec {a b : Sint} (ha : WF a.v) (hb : WF b.v) :
    ((toInt a - toInt b).natAbs < B64 ^ 9 → ∃ z, subP a b = .ok z ∧ WF z.v ∧ toInt z = toInt a - toInt b) ∧
    (B64 ^ 9 ≤ (toInt a - toInt b).natAbs → subP a b = .exit) := by
  have := addP_spec (b := ⟨b.v, !b.neg⟩) ha hb
  rw [toInt_not] at this
  rw [subP_eq, sub_eq_add_neg]
  exact this

theorem mulP_spec {a b : Sint} (ha : WF a.v) (hb : WF b.v) :
    (a.v.length + b.v.length ≤ 9 → ∃ z, mulP a b = .ok z ∧ WF z.v ∧ toInt z = toInt a * toInt b) ∧
    (9 < a.v.length + b.v.length → mulP a b = .exit) := by
  obtain ⟨h1, h2⟩ := Vuint.mul_spec ha hb
  refine ⟨fun h => ?_, fun h => by unfold mulP; rw [h2 h]; rfl⟩
  obtain ⟨z, e, wz, vz⟩ := h1 h
  refine ⟨⟨z, a.neg ^^ b.neg⟩, by unfold mulP; rw [e]; rfl, wz, ?_⟩
  unfold toInt
  dsimp only
  rw [vz]
  push_cast
  cases a.neg <;> cases b.neg <;> simp

theorem isZero_spec {a : Sint} (ha : WF a.v) : isZero a = true ↔ toInt a = 0 := by
  unfold isZero
  rw [isZero_iff ha]
  unfold toInt
  split <;> omega

theorem compare_spec {a b : Sint} (ha : WF a.v) (hb : WF b.v) :
    (compare a b = 0 ∧ toInt a = toInt b) ∨ (compare a b = 1 ∧ toInt a > toInt b) ∨ (compare a b = -1 ∧ toInt a < toInt b) := by
  have za := isZero_spec ha
  have zb := isZero_spec hb
  have hc := cmp_spec ha hb
  obtain ⟨v, n⟩ := a
  obtain ⟨w, k⟩ := b
  dsimp only at hc
  unfold compare Vuint.compare
  dsimp only
  cases n <;> cases k <;> simp only [Bool.xor_false, Bool.xor_true, Bool.not_false, Bool.not_true, if_true,
    if_false, toInt_pos, toInt_neg, Bool.false_eq_true, mul_one, Bool.and_eq_true] at *
  · omega
  · by_cases h : isZero ⟨v, false⟩ = true ∧ isZero ⟨w, true⟩ = true
    · rw [if_pos h]; rw [za, zb] at h; omega
    · rw [if_neg h]; rw [za, zb] at h; omega
  · by_cases h : isZero ⟨v, true⟩ = true ∧ isZero ⟨w, false⟩ = true
    · rw [if_pos h]; rw [za, zb] at h; omega
    · rw [if_neg h]; rw [za, zb] at h; omega
  · omega

theorem negate_eq (m : Mem) (out x : ℕ) : negate m out x = Function.update m out ⟨(m x).v, !(m x).neg⟩ := by
  unfold negate
  dsimp only
  rw [setV_neg, setNeg_setV]

theorem shl_eq (m : Mem) (out x n : ℕ) : shl m out x n = store m out (Vuint.shl (m x).v n >>= fun v => .ok ⟨v, (m x).neg⟩) := by
  unfold shl
  dsimp only
  simp only [setV_neg]
  exact store_map _ _

theorem clear_eq (m : Mem) (i : ℕ) : clear m i = Function.update m i ⟨[0], false⟩ := setNeg_setV _ _ _ _

theorem shr_eq (m : Mem) (out x n : ℕ) (h : isZero (m x) = false) (h' : (m x).neg = false) :
    shr m out x n = store m out (Vuint.shr (m x).v n >>= fun v => .ok ⟨v, false⟩) := by
  unfold shr
  rw [h, h', if_neg Bool.false_ne_true, if_neg Bool.false_ne_true]
  exact store_map _ _

/-! ### division -/

/-- sign and magnitude -/
def sg (n : Bool) (a : ℕ) : ℤ := if n then -(a : ℤ) else a

theorem fdiv_core (n k : Bool) {a b : ℕ} (hb : b ≠ 0) :
    (a % b = 0 → (sg n a).fdiv (sg k b) = sg (n ^^ k) (a / b) ∧ (sg n a).fmod (sg k b) = 0) ∧
    (a % b ≠ 0 → (n ^^ k) = false → (sg n a).fdiv (sg k b) = sg (n ^^ k) (a / b) ∧ (sg n a).fmod (sg k b) = sg k (a % b)) ∧
    (a % b ≠ 0 → (n ^^ k) = true →
      (sg n a).fdiv (sg k b) = sg (n ^^ k) (a / b + 1) ∧ (sg n a).fmod (sg k b) = sg k (b - a % b)) := by
  have h := Nat.div_add_mod a b
  have hlt := Nat.mod_lt a (Nat.pos_of_ne_zero hb)
  generalize a / b = q at *
  generalize a % b = r at *
  subst h
  have hb' : (0 : ℤ) < b := by omega
  have hbn : (-b : ℤ) < 0 := by omega
  cases n <;> cases k <;> simp only [sg, Bool.xor_false, Bool.xor_true, Bool.not_false, Bool.not_true, Bool.true_eq_false,
    if_true, if_false, Bool.false_eq_true, Int.fdiv_fmod_unique hb', Int.fdiv_fmod_unique' hbn, false_imp_iff, true_imp_iff, imp_true_iff, true_and, and_true]
  all_goals
    refine ⟨fun h => ⟨?_, by omega, by omega⟩, fun h => ⟨?_, by omega, by omega⟩⟩
  all_goals try subst h
  all_goals first | (push_cast; ring1) | (rw [Nat.cast_sub hlt.le]; push_cast; ring1)

theorem toInt_sg (x : Sint) : toInt x = sg x.neg (val x.v) := rfl

/-- the memory after a division -/
def put (m : Mem) (q : Option ℕ) (r : ℕ) (Q R : Sint) : Mem :=
  Function.update (match q with | none => m | some q => Function.update m q Q) r R

theorem put_eq1 (m : Mem) (q r : ℕ) (h : q ≠ r) (v w : List ℕ) (s t : Bool) :
    setNeg (setNeg (setV (setV m q v) r w) r s) q t = put m (some q) r ⟨v, t⟩ ⟨w, s⟩ := by
  funext i
  unfold put setNeg setV
  by_cases h1 : i = q
  · subst h1; simp [h]
  · by_cases h2 : i = r
    · subst h2; simp [h1]
    · simp [h1, h2]

theorem put_eq2 (m : Mem) (q r : ℕ) (h : q ≠ r) (v w v' w' : List ℕ) (s t : Bool) :
    setNeg (setNeg (setV (setV (setV (setV m q v) r w) q v') r w') r s) q t = put m (some q) r ⟨v', t⟩ ⟨w', s⟩ := by
  funext i
  unfold put setNeg setV
  by_cases h1 : i = q
  · subst h1; simp [h]
  · by_cases h2 : i = r
    · subst h2; simp [h1]
    · simp [h1, h2]

theorem put_eq0 (m : Mem) (r : ℕ) (w : List ℕ) (s : Bool) (Q : Sint) :
    setNeg (setV m r w) r s = put m none r Q ⟨w, s⟩ := setNeg_setV _ _ _ _

theorem put_eq0' (m : Mem) (r : ℕ) (w w' : List ℕ) (s : Bool) (Q : Sint) :
    setNeg (setV (setV m r w) r w') r s = put m none r Q ⟨w', s⟩ := by
  unfold put setNeg setV
  simp

theorem setV_self (m : Mem) (i : ℕ) (v : List ℕ) : (setV m i v i).v = v := by
  unfold setV; rw [Function.update_self]

theorem setV_ne (m : Mem) {i j : ℕ} (h : j ≠ i) (v : List ℕ) : setV m i v j = m j := by
  unfold setV; rw [Function.update_of_ne h]

theorem div_spec (m : Mem) (q : Option ℕ) (r x y : ℕ) (hq : q ≠ some r) (hx : WF (m x).v) (hy : WF (m y).v) :
    (toInt (m y) = 0 → div m q r x y = .ok (false, m)) ∧
    (toInt (m y) ≠ 0 → ((toInt (m y)).natAbs < B64 ^ 8 ∨ (toInt (m x)).natAbs ≤ (toInt (m y)).natAbs) →
      ∃ Q R : Sint, div m q r x y = .ok (true, put m q r Q R) ∧ WF Q.v ∧ WF R.v ∧
        toInt Q = (toInt (m x)).fdiv (toInt (m y)) ∧ toInt R = (toInt (m x)).fmod (toInt (m y))) ∧
    (B64 ^ 8 ≤ (toInt (m y)).natAbs → (toInt (m y)).natAbs < (toInt (m x)).natAbs → div m q r x y = .exit) := by
  obtain ⟨d1, d2, d3⟩ := Vuint.div_spec hx hy
  have nx : (toInt (m x)).natAbs = val (m x).v := by unfold toInt; split <;> omega
  have ny : (toInt (m y)).natAbs = val (m y).v := by unfold toInt; split <;> omega
  have n0 : toInt (m y) = 0 ↔ val (m y).v = 0 := by unfold toInt; split <;> omega
  rw [nx, ny, Ne, n0]
  refine ⟨fun h => ?_, fun h h' => ?_, fun h h' => ?_⟩
  · unfold div
    rw [if_neg hq]
    dsimp only
    rw [d1 h]
    rfl
  · obtain ⟨qv, rv, e, wq, wr, vq, vr⟩ := d2 h h'
    obtain ⟨f1, f2, f3⟩ := fdiv_core (m x).neg (m y).neg (a := val (m x).v) (b := val (m y).v) h
    rw [← vq, ← vr] at f1 f2 f3
    have hq1 : val rv ≠ 0 → ∃ t, WF t ∧ Vuint.add32 qv 1 = .ok t ∧ val t = val qv + 1 := by
      intro hz
      have hlt : val qv + 1 < B64 ^ 9 := by
        have hxl := lt_of_lt_of_le hx.val_lt (Nat.pow_le_pow_right (by norm_num : 0 < B64) hx.len)
        have hy2 : 2 ≤ val (m y).v := by
          by_contra hc
          have : val (m y).v = 1 := by omega
          rw [this, Nat.mod_one] at vr
          exact hz vr
        have : val qv ≤ val (m x).v / 2 := by rw [vq]; exact Nat.div_le_div_left hy2 (by norm_num)
        have h9 : 16 ≤ B64 ^ 9 := by decide +kernel
        clear d1 d2 d3
        generalize B64 ^ 9 = C at *
        omega
      obtain ⟨t, et, wt, vt⟩ := (Vuint.add32_spec wq (y := 1) (by norm_num)).1 hlt
      exact ⟨t, wt, et, vt⟩
    have hp : ∀ z : Mem, (pure z : Res Mem) = .ok z := fun _ => rfl
    have hlt : val rv < val (m y).v := by rw [vr]; exact Nat.mod_lt _ (Nat.pos_of_ne_zero h)
    obtain ⟨s, es, ws, vs⟩ := (Vuint.sub_spec hy wr).1 hlt.le
    rcases q with _ | q
    · unfold div
      rw [if_neg hq]
      dsimp only
      rw [e, Res.bind_ok]
      dsimp only
      simp only [setV_neg, setV_self]
      by_cases hz : val rv = 0
      · rw [(isZero_iff wr).2 hz, if_pos rfl, hp, Res.bind_ok]
        refine ⟨⟨qv, (m x).neg ^^ (m y).neg⟩, ⟨rv, false⟩, ?_, wq, wr, ?_, ?_⟩
        · rw [put_eq0]; rfl
        · rw [toInt_sg (m x), toInt_sg (m y), (f1 hz).1]; rfl
        · rw [toInt_sg (m x), toInt_sg (m y), (f1 hz).2, toInt_pos, hz]; rfl
      · have hz' : Vuint.isZero rv = false := by rw [← Bool.not_eq_true, isZero_iff wr]; exact hz
        rw [hz', if_neg Bool.false_ne_true]
        by_cases hsg : ((m x).neg ^^ (m y).neg) = true
        · rw [hsg, if_pos rfl, hp, Res.bind_ok, setV_self, es, Res.bind_ok, hp, Res.bind_ok, hp, Res.bind_ok, setV_neg, setV_neg]
          obtain ⟨t, wt, vt⟩ := hq1 hz
          refine ⟨⟨t, true⟩, ⟨s, (m y).neg⟩, ?_, wt, ws, ?_, ?_⟩
          · rw [put_eq0' _ _ _ _ _ ⟨t, true⟩]; rfl
          · rw [toInt_sg (m x), toInt_sg (m y), (f3 hz hsg).1, hsg, ← vt.2]; rfl
          · rw [toInt_sg (m x), toInt_sg (m y), (f3 hz hsg).2, ← vs]; rfl
        · rw [Bool.not_eq_true] at hsg
          rw [hsg, if_neg Bool.false_ne_true, hp, Res.bind_ok, hp, Res.bind_ok, setV_neg]
          refine ⟨⟨qv, false⟩, ⟨rv, (m y).neg⟩, ?_, wq, wr, ?_, ?_⟩
          · rw [put_eq0]; rfl
          · rw [toInt_sg (m x), toInt_sg (m y), (f2 hz hsg).1, hsg]; rfl
          · rw [toInt_sg (m x), toInt_sg (m y), (f2 hz hsg).2]; rfl
    · have hqr : q ≠ r := fun h => hq (by rw [h])
      unfold div
      rw [if_neg hq]
      dsimp only
      rw [e, Res.bind_ok]
      dsimp only
      simp only [setV_neg, setV_self]
      by_cases hz : val rv = 0
      · rw [(isZero_iff wr).2 hz, if_pos rfl, hp, Res.bind_ok]
        refine ⟨⟨qv, (m x).neg ^^ (m y).neg⟩, ⟨rv, false⟩, ?_, wq, wr, ?_, ?_⟩
        · rw [put_eq1 _ _ _ hqr]; rfl
        · rw [toInt_sg (m x), toInt_sg (m y), (f1 hz).1]; rfl
        · rw [toInt_sg (m x), toInt_sg (m y), (f1 hz).2, toInt_pos, hz]; rfl
      · have hz' : Vuint.isZero rv = false := by rw [← Bool.not_eq_true, isZero_iff wr]; exact hz
        rw [hz', if_neg Bool.false_ne_true]
        by_cases hsg : ((m x).neg ^^ (m y).neg) = true
        · obtain ⟨t, wt, et, vt⟩ := hq1 hz
          rw [hsg, if_pos rfl, setV_ne _ hqr, setV_self, et, Res.bind_ok, hp, Res.bind_ok, setV_ne _ (Ne.symm hqr), setV_self,
            es, Res.bind_ok, hp, Res.bind_ok, hp, Res.bind_ok, setV_neg, setV_neg, setV_neg, setV_neg]
          refine ⟨⟨t, true⟩, ⟨s, (m y).neg⟩, ?_, wt, ws, ?_, ?_⟩
          · rw [put_eq2 _ _ _ hqr]; rfl
          · rw [toInt_sg (m x), toInt_sg (m y), (f3 hz hsg).1, hsg, ← vt]; rfl
          · rw [toInt_sg (m x), toInt_sg (m y), (f3 hz hsg).2, ← vs]; rfl
        · rw [Bool.not_eq_true] at hsg
          rw [hsg, if_neg Bool.false_ne_true, hp, Res.bind_ok, hp, Res.bind_ok, setV_neg, setV_neg]
          refine ⟨⟨qv, false⟩, ⟨rv, (m y).neg⟩, ?_, wq, wr, ?_, ?_⟩
          · rw [put_eq1 _ _ _ hqr]; rfl
          · rw [toInt_sg (m x), toInt_sg (m y), (f2 hz hsg).1, hsg]; rfl
          · rw [toInt_sg (m x), toInt_sg (m y), (f2 hz hsg).2]; rfl
  · unfold div
    rw [if_neg hq]
    dsimp only
    rw [d3 h h']
    rfl

end Verif.Sint
