import Verif.Vuint.Prog
import Verif.Vuint.DivLemmas

/-! Helper lemmas for C07. -/

namespace Verif
open Vuint

theorem pair32_spec (ws : List ℕ) (h : ∀ w ∈ ws, w < 2 ^ 32) :
    (pair32 ws).length = (ws.length + 1) / 2 ∧ Words (pair32 ws) ∧
    val (pair32 ws) = digitsVal (2 ^ 32) ws := by
  induction ws using pair32.induct with
  | case1 l hh ws ih =>
    obtain ⟨h1, h2, h3⟩ := ih (fun w hw => h w (by simp [hw]))
    have hl : l < 2 ^ 32 := h l (by simp)
    have hh' : hh < 2 ^ 32 := h hh (by simp)
    refine ⟨by simp [pair32, h1]; omega, ?_, ?_⟩
    · rw [pair32, words_cons]; exact ⟨by omega, h2⟩
    · rw [pair32, val_cons, h3]
      simp only [digitsVal]
      omega
  | case2 l =>
    have hl : l < 2 ^ 32 := h l (by simp)
    refine ⟨by simp [pair32], ?_, by simp [pair32, digitsVal]⟩
    rw [pair32, words_cons]; exact ⟨by omega, by simp⟩
  | case3 => simp [pair32, digitsVal]

theorem digitsVal_64 (ws : List ℕ) : digitsVal (2 ^ 64) ws = val ws := by
  induction ws with
  | nil => rfl
  | cons a as ih => simp only [digitsVal, ih, val_cons]; norm_num

theorem setUnits_spec (ws : List ℕ) (h : ∀ w ∈ ws, w < 2 ^ 64) :
    (ws.length ≤ 9 → ∃ z, setUnits ws = .ok z ∧ WF z ∧ val z = digitsVal (2 ^ 64) ws) ∧
    (9 < ws.length → setUnits ws = .exit) := by
  rw [digitsVal_64]
  have hw : Words ws := h
  unfold setUnits
  by_cases h0 : ws.length = 0
  · rw [if_pos h0]
    have : ws = [] := List.length_eq_zero_iff.1 h0
    subst this
    exact ⟨fun _ => ⟨_, rfl, by decide, rfl⟩, fun h => by simp at h⟩
  · rw [if_neg h0]
    refine ⟨fun h9 => ?_, fun h9 => ?_⟩
    · rw [alloc_ok h9]
      exact ⟨_, rfl, wf_trim (by omega) hw h9, val_trim _⟩
    · rw [alloc_exit h9]; rfl

theorem setUnits32_spec (ws : List ℕ) (h : ∀ w ∈ ws, w < 2 ^ 32) :
    (ws.length ≤ 18 → ∃ z, setUnits32 ws = .ok z ∧ WF z ∧ val z = digitsVal (2 ^ 32) ws) ∧
    (18 < ws.length → setUnits32 ws = .exit) := by
  obtain ⟨p1, p2, p3⟩ := pair32_spec ws h
  unfold setUnits32
  by_cases h0 : ws.length = 0
  · rw [if_pos h0]
    have : ws = [] := List.length_eq_zero_iff.1 h0
    subst this
    exact ⟨fun _ => ⟨_, rfl, by decide, rfl⟩, fun h => by simp at h⟩
  · rw [if_neg h0]
    refine ⟨fun h9 => ?_, fun h9 => ?_⟩
    · rw [alloc_ok (by omega)]
      exact ⟨_, rfl, wf_trim (by omega) p2 (by omega), by rw [val_trim, p3]⟩
    · rw [alloc_exit (by omega)]; rfl

/-- the state of objects is well formed and has the given values -/
def Rel (s : VState) (n : NState) : Prop := ∀ i, WF (s i) ∧ val (s i) = n i

theorem Rel.put {s : VState} {n : NState} (h : Rel s n) {v : List ℕ} {m : ℕ} (hv : WF v)
    (e : val v = m) (d : ℕ) : Rel (s.put d v) (n.put d m) := by
  intro i
  unfold VState.put NState.put
  by_cases hi : i = d
  · simp [hi, hv, e]
  · simp [hi, h i]

/-- one operation: either it exits, or it is undefined (excluded by `defined`), or it computes the
specified values -/
theorem exec_spec {s : VState} {n : NState} (h : Rel s n) (o : VOp) (ho : o.argsOk)
    (hd : o.defined n) :
    o.exec s = .exit ∨ ∃ s', o.exec s = .ok s' ∧ Rel s' (o.spec n) := by
  have bin : ∀ {c : Res (List ℕ)} {m d : ℕ}, (c = .exit ∨ ∃ z, c = .ok z ∧ WF z ∧ val z = m) →
      ((c >>= fun v => pure (s.put d v)) = Res.exit ∨
        ∃ s', (c >>= fun v => pure (s.put d v)) = .ok s' ∧ Rel s' (n.put d m)) := by
    intro c m d hc
    rcases hc with hc | ⟨z, hc, wz, vz⟩
    · left; rw [hc]; rfl
    · right; rw [hc]; exact ⟨_, rfl, h.put wz vz d⟩
  have dv : ∀ x y, (Vuint.div (s x) (s y) = .exit) ∨
      (n y = 0 ∧ Vuint.div (s x) (s y) = .ok none) ∨
      (n y ≠ 0 ∧ ∃ q r, Vuint.div (s x) (s y) = .ok (some (q, r)) ∧ WF q ∧ WF r ∧
        val q = n x / n y ∧ val r = n x % n y) := by
    intro x y
    obtain ⟨d1, d2, d3⟩ := Vuint.div_spec (h x).1 (h y).1
    rw [(h x).2, (h y).2] at *
    by_cases h0 : n y = 0
    · exact Or.inr (Or.inl ⟨h0, d1 h0⟩)
    · by_cases hc : n y < B64 ^ 8 ∨ n x ≤ n y
      · exact Or.inr (Or.inr ⟨h0, d2 h0 hc⟩)
      · left
        rw [not_or, Nat.not_lt, Nat.not_le] at hc
        exact d3 hc.1 hc.2
  cases o with
  | setU d w => right; exact ⟨_, rfl, h.put (wf_ofUnit ho) (val_ofUnit w) d⟩
  | setWords d ws =>
    apply bin
    obtain ⟨h1, h2⟩ := setUnits_spec ws ho
    rcases Nat.lt_or_ge 9 ws.length with hl | hl
    · exact Or.inl (h2 hl)
    · exact Or.inr (h1 hl)
  | setWords32 d ws =>
    apply bin
    obtain ⟨h1, h2⟩ := setUnits32_spec ws ho
    rcases Nat.lt_or_ge 18 ws.length with hl | hl
    · exact Or.inl (h2 hl)
    · exact Or.inr (h1 hl)
  | assign d x => right; exact ⟨_, rfl, h.put (h x).1 (h x).2 d⟩
  | add d x y =>
    apply bin
    obtain ⟨h1, h2⟩ := add_spec (h x).1 (h y).1
    rw [(h x).2, (h y).2] at h1 h2
    rcases Nat.lt_or_ge (n x + n y) (B64 ^ 9) with hl | hl
    · exact Or.inr (h1 hl)
    · exact Or.inl (h2 hl)
  | add32 d x w =>
    apply bin
    obtain ⟨h1, h2⟩ := add32_spec (h x).1 ho
    rw [(h x).2] at h1 h2
    rcases Nat.lt_or_ge (n x + w) (B64 ^ 9) with hl | hl
    · exact Or.inr (h1 hl)
    · exact Or.inl (h2 hl)
  | sub d x y =>
    apply bin
    obtain ⟨h1, -, -⟩ := sub_spec (h x).1 (h y).1
    rw [(h x).2, (h y).2] at h1
    exact Or.inr (h1 hd)
  | mul d x y =>
    apply bin
    obtain ⟨h1, h2⟩ := Vuint.mul_spec (h x).1 (h y).1
    rw [(h x).2, (h y).2] at h1
    rcases Nat.lt_or_ge 9 ((s x).length + (s y).length) with hl | hl
    · exact Or.inl (h2 hl)
    · exact Or.inr (h1 hl)
  | mul1 d x w =>
    apply bin
    obtain ⟨h1, h2⟩ := mulUnit_spec (h x).1 ho
    rw [(h x).2] at h1
    rcases Nat.lt_or_ge 9 ((s x).length + 1) with hl | hl
    · exact Or.inl (h2 hl)
    · exact Or.inr (h1 hl)
  | div q r x y =>
    rcases dv x y with hc | ⟨h0, hc⟩ | ⟨h0, a, b, hc, wa, wb, va, vb⟩
    · left; simp [VOp.exec, hc]
    · right; simp only [VOp.exec, hc, Res.bind_ok]; exact ⟨_, rfl, by simpa [VOp.spec, h0] using h⟩
    · right; simp only [VOp.exec, hc, Res.bind_ok]
      refine ⟨_, rfl, ?_⟩
      simp only [VOp.spec, h0, if_false]
      exact (h.put wa va q).put wb vb r
  | mod r x y =>
    rcases dv x y with hc | ⟨h0, hc⟩ | ⟨h0, a, b, hc, wa, wb, va, vb⟩
    · left; simp [VOp.exec, hc]
    · right; simp only [VOp.exec, hc, Res.bind_ok]; exact ⟨_, rfl, by simpa [VOp.spec, h0] using h⟩
    · right; simp only [VOp.exec, hc, Res.bind_ok]
      refine ⟨_, rfl, ?_⟩
      simp only [VOp.spec, h0, if_false]
      exact h.put wb vb r
  | div1 q x w =>
    right
    obtain ⟨a, r, e, wa, va, -⟩ := divUnit_spec (h x).1 (Nat.pos_of_ne_zero hd)
    simp only [VOp.exec, e, Res.bind_ok]
    exact ⟨_, rfl, h.put wa (by rw [va, (h x).2]) q⟩
  | shl d x k =>
    apply bin
    obtain ⟨h1, h2, h3⟩ := shl_spec k (h x).1
    rw [(h x).2] at h1 h2 h3
    rcases Nat.lt_or_ge (n x * 2 ^ k) (B64 ^ 9) with hl | hl
    · by_cases hz : n x ≠ 0 ∨ k < 576
      · exact Or.inr (h1 hl hz)
      · rw [not_or, not_not] at hz
        exact Or.inl (h3 hz.1 (by omega))
    · exact Or.inl (h2 hl)
  | shr d x k =>
    apply bin
    obtain ⟨z, e, wz, vz⟩ := shr_spec k (h x).1
    exact Or.inr ⟨z, e, wz, by rw [vz, (h x).2]⟩

theorem runV_spec (ops : List VOp) : ∀ {s : VState} {n : NState}, Rel s n →
    (∀ o ∈ ops, o.argsOk) → definedN ops n →
    runV ops s = .exit ∨ ∃ s', runV ops s = .ok s' ∧ Rel s' (runN ops n) := by
  induction ops with
  | nil => intro s n h _ _; exact Or.inr ⟨s, rfl, h⟩
  | cons o os ih =>
    intro s n h ho hd
    rcases exec_spec h o (ho o (by simp)) hd.1 with e | ⟨s', e, h'⟩
    · left; simp [runV, e]
    · have := ih h' (fun o' ho' => ho o' (by simp [ho'])) hd.2
      simpa [runV, runN, e] using this

/-- every prefix-closed run without the definedness assumption: a completed run is well formed -/
theorem exec_wf {s : VState} (h : ∀ i, WF (s i)) (o : VOp) (ho : o.argsOk) {s' : VState}
    (e : o.exec s = .ok s') : ∀ i, WF (s' i) := by
  have hr : Rel s (fun i => val (s i)) := fun i => ⟨h i, rfl⟩
  by_cases hd : o.defined (fun i => val (s i))
  · rcases exec_spec hr o ho hd with e' | ⟨s'', e', h'⟩
    · rw [e'] at e; cases e
    · rw [e'] at e; cases e; exact fun i => (h' i).1
  · exfalso
    cases o with
    | sub d x y =>
      have hlt : val (s x) < val (s y) := Nat.lt_of_not_le hd
      obtain ⟨-, h2, h3⟩ := sub_spec (h x) (h y)
      rcases Nat.lt_or_ge (s x).length (s y).length with hl | hl
      · simp [VOp.exec, h3 hl] at e
      · simp [VOp.exec, h2 hlt hl] at e
    | div1 q x w =>
      have hw : w = 0 := by by_contra hne; exact hd hne
      subst hw
      simp [VOp.exec, divUnit] at e
    | _ => exact hd trivial

end Verif
