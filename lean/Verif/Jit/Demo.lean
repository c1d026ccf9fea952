import Verif.Jit.Spec

/-! Concrete machine states that meet the hypotheses of C57-C64: the examples beside those theorems use them. -/

namespace Verif
namespace Jit

open Fp Reg

/-- tables at words 1000, 1100, 1200; from word 0 on, numbers below p; word 300 points to word 96;
words 304 to 311 are 0 -/
def demoMem (i : ℕ) : ℕ :=
  (if i < 256 then (i / 4 + 3) ^ 400 % p / 2 ^ (64 * (i % 4))
   else if 1000 ≤ i ∧ i < 1040 then (i - 1000) / 4 * p / 2 ^ (64 * ((i - 1000) % 4))
   else if 1100 ≤ i ∧ i < 1104 then 0
   else if 1104 ≤ i ∧ i < 1108 then (p + 1) / 2 / 2 ^ (64 * (i - 1104))
   else if 1200 ≤ i ∧ i < 1232 then p * 2 ^ 256 / 2 ^ ((i - 1200) / 8) / 2 ^ (64 * ((i - 1200) % 8))
   else if i = 300 then 8 * 96
   else if 304 ≤ i ∧ i < 312 then 0
   else 77 * i) % 2 ^ 64
def demoReg (z x y : ℕ) : Reg → ℕ
  | rdi => 8 * (z % 1000)
  | rsi => 8 * (x % 1000)
  | rdx => 8 * (y % 1000)
  | rsp => 8 * 900
  | rax => 5
  | _ => 2 ^ 64 - 1
/-- a call f(z, x, y) for small z, x, y with the stack pointer at word 900 -/
def demo (z x y : ℕ) : St := ⟨demoReg z x y, fun _ => 3, none, none, demoMem⟩
def demoCfg (a b : Bool) : Cfg := ⟨a, b, 1000, 1100, 1200⟩

theorem demo_tables (a b : Bool) : Tables (demoCfg a b) demoMem where
  p := show ∀ i, i < 10 → num demoMem (1000 + 4 * i) 4 = i * p % 2 ^ 256 by decide +kernel
  h0 := show num demoMem 1100 4 = 0 by decide +kernel
  h1 := show num demoMem 1104 4 = (Fp.p + 1) / 2 by decide +kernel
  n := show num demoMem 1216 8 = Fp.p * 2 ^ 254 by decide +kernel

theorem demo_env (a b : Bool) (z x y : ℕ) {d : ℕ} (hd : d ≤ 400 := by norm_num) : Env (demoCfg a b) (demo z x y) 900 d where
  words :=
    { r := fun q => by cases q <;> simp only [demo, demoReg] <;> omega
      x := fun _ => by simp only [demo]; norm_num
      m := fun i => Nat.mod_lt _ (by norm_num)
      c := fun c h => by simp [demo] at h }
  tables := demo_tables a b
  pb := by simp only [demoCfg]; norm_num
  hb := by simp only [demoCfg]; norm_num
  nb := by simp only [demoCfg]; norm_num
  sp := rfl
  room := by omega
  top := by norm_num
  stp := .inl (by simp only [demoCfg]; omega)
  sth := .inl (by simp only [demoCfg]; omega)
  stn := .inl (by simp only [demoCfg]; omega)

theorem demo_src {d A n : ℕ} (h : A + n ≤ 256) (hd : d ≤ 400 := by norm_num) : Src' 900 d A n := ⟨by omega, .inr (by omega)⟩
theorem demo_dst (a b : Bool) {d A n : ℕ} (h : A + n ≤ 256) (hd : d ≤ 400 := by norm_num) : Dst (demoCfg a b) 900 d A n where
  bound := by omega
  stack := .inr (by omega)
  tp := .inl (by simp only [demoCfg]; omega)
  th := .inl (by simp only [demoCfg]; omega)
  tn := .inl (by simp only [demoCfg]; omega)

theorem demo_call3 (a b : Bool) {d z n x k y l : ℕ} (hd : d ≤ 400 := by norm_num) (hz : z + n ≤ 256 := by norm_num) (hx : x + k ≤ 256 := by norm_num) (hy : y + l ≤ 256 := by norm_num) :
    Call3 (demoCfg a b) (demo z x y) 900 d z n x k y l where
  toEnv := demo_env a b z x y hd
  az := show 8 * (z % 1000) = 8 * z by omega
  ax := show 8 * (x % 1000) = 8 * x by omega
  ay := show 8 * (y % 1000) = 8 * y by omega
  z := demo_dst a b hz hd
  x := demo_src hx hd
  y := demo_src hy hd
theorem demo_call2 (a b : Bool) {d z n x k : ℕ} (y : ℕ) (hd : d ≤ 400 := by norm_num) (hz : z + n ≤ 256 := by norm_num) (hx : x + k ≤ 256 := by norm_num) :
    Call2 (demoCfg a b) (demo z x y) 900 d z n x k where
  toEnv := demo_env a b z x y hd
  az := show 8 * (z % 1000) = 8 * z by omega
  ax := show 8 * (x % 1000) = 8 * x by omega
  z := demo_dst a b hz hd
  x := demo_src hx hd

/-- the operands of the examples are canonical and different from one another -/
theorem demo_canon : ∀ i, i < 64 → num demoMem (4 * i) 4 < p := by decide +kernel

theorem demo_canonD : ∀ i, i < 32 → num demoMem (8 * i) 8 < p * 2 ^ 256 := by decide +kernel

theorem demo_fp {A : ℕ} (h : A % 4 = 0 := by norm_num) (h' : A < 256 := by norm_num) : AtFp demoMem A (residue (num demoMem A 4)) :=
  ⟨by have := demo_canon (A / 4) (by omega); rwa [show 4 * (A / 4) = A by omega] at this, rfl⟩
theorem demo_d {A : ℕ} (h : A % 8 = 0 := by norm_num) (h' : A < 256 := by norm_num) : AtD demoMem A (residueD (num demoMem A 8)) :=
  ⟨by have := demo_canonD (A / 8) (by omega); rwa [show 8 * (A / 8) = A by omega] at this, rfl⟩
/-- the values of the operands -/
noncomputable def demoK2 (A : ℕ) : K2 := ⟨residue (num demoMem A 4), residue (num demoMem (A + 4) 4)⟩
noncomputable def demoK6 (A : ℕ) : K6 := ⟨demoK2 A, demoK2 (A + 8), demoK2 (A + 16)⟩
noncomputable def demoK12 (A : ℕ) : K12 := ⟨demoK6 A, demoK6 (A + 24)⟩
noncomputable def demoD2 (A : ℕ) : K2 := ⟨residueD (num demoMem A 8), residueD (num demoMem (A + 8) 8)⟩
noncomputable def demoF2 (A : ℕ) : F2 := (rd2 4 demoMem A).den
theorem demo_f2 {A : ℕ} (h : A % 4 = 0 := by norm_num) (h' : A + 4 < 256 := by norm_num) : AtF2 demoMem A (demoK2 A) :=
  ⟨demo_fp h (by omega), demo_fp (by omega) (by omega)⟩
theorem demo_f6 {A : ℕ} (h : A % 4 = 0 := by norm_num) (h' : A + 20 < 256 := by norm_num) : AtF6 demoMem A (demoK6 A) :=
  ⟨demo_f2 h (by omega), demo_f2 (by omega) (by omega), demo_f2 (by omega) (by omega)⟩
theorem demo_f12 {A : ℕ} (h : A % 4 = 0 := by norm_num) (h' : A + 44 < 256 := by norm_num) : AtF12 demoMem A (demoK12 A) :=
  ⟨demo_f6 h (by omega), demo_f6 (by omega) (by omega)⟩
theorem demo_d2 {A : ℕ} (h : A % 8 = 0 := by norm_num) (h' : A + 8 < 256 := by norm_num) : AtD2 demoMem A (demoD2 A) :=
  ⟨demo_d h (by omega), demo_d (by omega) (by omega)⟩
theorem demo_obj {A : ℕ} (h : A % 4 = 0 := by norm_num) (h' : A + 4 < 256 := by norm_num) : AtF2 demoMem A (demoF2 A).k :=
  atF2.2 ⟨(atF2.1 (demo_f2 h h')).1, rfl⟩

theorem demo_call1 (a b : Bool) {d z n : ℕ} (x y : ℕ) (hd : d ≤ 400 := by norm_num) (hz : z + n ≤ 256 := by norm_num) :
    Call1 (demoCfg a b) (demo z x y) 900 d z n where
  toEnv := demo_env a b z x y hd
  az := show 8 * (z % 1000) = 8 * z by omega
  z := demo_dst a b hz hd
theorem demo_callL (a b : Bool) {d l T : ℕ} (y : ℕ) (hl : l + 24 ≤ T := by norm_num) (hT : T + 24 ≤ 256 := by norm_num)
    (hd : d ≤ 400 := by norm_num) : CallL (demoCfg a b) (demo l T y) 900 d l T where
  toEnv := demo_env a b l T y hd
  al := show 8 * (l % 1000) = 8 * l by omega
  aT := show 8 * (T % 1000) = 8 * T by omega
  dl := demo_dst a b (by omega) hd
  dT := demo_dst a b hT hd
  lT := .inl hl
theorem demo_callLP (a b : Bool) {d l T P : ℕ} (hl : l + 24 ≤ T := by norm_num) (hT : T + 24 ≤ P := by norm_num)
    (hP : P + 8 ≤ 256 := by norm_num) (hd : d ≤ 400 := by norm_num) : CallLP (demoCfg a b) (demo l T P) 900 d l T P where
  toCallL := demo_callL a b P hl (by omega) hd
  aP := show 8 * (P % 1000) = 8 * P by omega
  sP := demo_src hP hd
  lP := .inl (by omega)
  TP := .inl hT
/-- n = 8 k squarings -/
theorem demo_callC (a b : Bool) {k : ℕ} (hk : k < 1000) {d : ℕ} (hd : d ≤ 400 := by norm_num) :
    CallC (demoCfg a b) (demo 300 k 0) 900 d 300 96 (8 * k) where
  toEnv := demo_env a b 300 k 0 hd
  aC := show 8 * (300 % 1000) = 8 * 300 by norm_num
  an := show 8 * (k % 1000) = 8 * k % 2 ^ 64 by omega
  sC := ⟨by norm_num, .inr (by omega)⟩
  ref := show demoMem 300 = 8 * 96 by decide +kernel
  dZ := demo_dst a b (by norm_num) hd

noncomputable def demoFe (A : ℕ) : Fe := .ofZ (residue (num demoMem A 4))
theorem demo_fe {A : ℕ} (h : A % 4 = 0 := by norm_num) (h' : A < 256 := by norm_num) : AtFp demoMem A (demoFe A).toZ :=
  ⟨(demo_fp h h').1, (Fe.toZ_ofZ _).symm⟩

theorem demo_zero : num demoMem 304 8 = 0 := by decide +kernel
theorem demo_callZ (a b : Bool) {d : ℕ} (hd : d ≤ 400 := by norm_num) : Call2 (demoCfg a b) (demo 48 304 0) 900 d 48 8 304 8 where
  toEnv := demo_env a b 48 304 0 hd
  az := show 8 * (48 % 1000) = 8 * 48 by norm_num
  ax := show 8 * (304 % 1000) = 8 * 304 by norm_num
  z := demo_dst a b (by norm_num) hd
  x := ⟨by norm_num, .inr (by omega)⟩

/-- the same state with the coefficients of an element at word 96 -/
def elMem (x : F12) (i : ℕ) : ℕ :=
  if 96 ≤ i ∧ i < 144 then (l12 x.raw).getD ((i - 96) / 4) 0 / 2 ^ (64 * ((i - 96) % 4)) % 2 ^ 64 else demoMem i

theorem num_congr {m m' : ℕ → ℕ} {A n : ℕ} (h : ∀ i, A ≤ i → i < A + n → m i = m' i) : num m A n = num m' A n := by
  induction n generalizing A with
  | zero => rfl
  | succ n ih => rw [num, num, h A le_rfl (by omega), ih fun i h1 h2 => h i (by omega) (by omega)]

theorem num_of {m : ℕ → ℕ} {A v : ℕ} (hv : v < 2 ^ 256) (h : ∀ i, i < 4 → m (A + i) = v / 2 ^ (64 * i) % 2 ^ 64) : num m A 4 = v := by
  have h0 := h 0 (by norm_num)
  have h1 := h 1 (by norm_num)
  have h2 := h 2 (by norm_num)
  have h3 := h 3 (by norm_num)
  simp only [num, Nat.add_assoc] at *
  norm_num at *
  rw [h0, h1, h2, h3]
  omega

theorem elMem_num (x : F12) {j : ℕ} (hj : j < 12) (hv : (l12 x.raw).getD j 0 < 2 ^ 256) : num (elMem x) (96 + 4 * j) 4 = (l12 x.raw).getD j 0 := by
  refine num_of hv fun i hi => ?_
  unfold elMem
  rw [if_pos (by omega), show (96 + 4 * j + i - 96) / 4 = j by omega, show (96 + 4 * j + i - 96) % 4 = i by omega]

theorem elMem_rd (x : F12) : rd12 4 (elMem x) 96 = x.raw := by
  have hc := x.raw_canon
  have W : p < 2 ^ 256 := by decide +kernel
  have h : ∀ j, j < 12 → num (elMem x) (96 + 4 * j) 4 = (l12 x.raw).getD j 0 := fun j hj => elMem_num x hj (by
    obtain ⟨⟨⟨h1, h2⟩, ⟨h3, h4⟩, h5, h6⟩, ⟨h7, h8⟩, ⟨h9, h10⟩, h11, h12⟩ := hc
    interval_cases j <;> simp only [l12, l6, List.cons_append, List.nil_append, List.getD_cons_zero, List.getD_cons_succ] <;> omega)
  have e : ∀ y : R12, (∀ j, j < 12 → (l12 y).getD j 0 = (l12 x.raw).getD j 0) → y = x.raw := by
    intro y hy
    generalize x.raw = r at hy
    obtain ⟨⟨⟨a1, a2⟩, ⟨a3, a4⟩, a5, a6⟩, ⟨a7, a8⟩, ⟨a9, a10⟩, a11, a12⟩ := y
    obtain ⟨⟨⟨b1, b2⟩, ⟨b3, b4⟩, b5, b6⟩, ⟨b7, b8⟩, ⟨b9, b10⟩, b11, b12⟩ := r
    obtain rfl := hy 0 (by norm_num)
    obtain rfl := hy 1 (by norm_num)
    obtain rfl := hy 2 (by norm_num)
    obtain rfl := hy 3 (by norm_num)
    obtain rfl := hy 4 (by norm_num)
    obtain rfl := hy 5 (by norm_num)
    obtain rfl := hy 6 (by norm_num)
    obtain rfl := hy 7 (by norm_num)
    obtain rfl := hy 8 (by norm_num)
    obtain rfl := hy 9 (by norm_num)
    obtain rfl := hy 10 (by norm_num)
    obtain rfl := hy 11 (by norm_num)
    rfl
  refine e _ fun j hj => ?_
  rw [← h j hj]
  interval_cases j <;> rfl

theorem elMem_at (x : F12) : AtF12 (elMem x) 96 x.k := by
  rw [atF12, elMem_rd]
  exact ⟨x.raw_canon, by rw [F12.den_raw]⟩

theorem el_callC (x : F12) (a b : Bool) {k : ℕ} (hk : k < 1000) {d : ℕ} (hd : d ≤ 400 := by norm_num) :
    CallC (demoCfg a b) { demo 300 k 0 with m := elMem x } 900 d 300 96 (8 * k) := by
  have h := demo_callC a b hk hd
  have e : ∀ A n, 144 ≤ A → num (elMem x) A n = num demoMem A n := fun A n hA => num_congr fun i h1 _ => if_neg (by omega)
  refine ⟨⟨⟨h.words.r, h.words.x, fun i => ?_, h.words.c⟩, ⟨fun i hi => ?_, ?_, ?_, ?_⟩, h.pb, h.hb, h.nb, h.sp, h.room, h.top, h.stp, h.sth, h.stn⟩,
    h.aC, h.an, h.sC, ?_, h.dZ⟩
  · show elMem x i < 2 ^ 64
    unfold elMem
    split
    · exact Nat.mod_lt _ (by norm_num)
    · exact h.words.m i
  · exact (e _ _ (by simp only [demoCfg]; omega)).trans (h.tables.p i hi)
  · exact (e _ _ (by simp only [demoCfg]; omega)).trans h.tables.h0
  · exact (e _ _ (by simp only [demoCfg]; omega)).trans h.tables.h1
  · exact (e _ _ (by simp only [demoCfg]; omega)).trans h.tables.n
  · exact (show elMem x 300 = demoMem 300 from if_neg (by norm_num)).trans h.ref

end Jit
end Verif
