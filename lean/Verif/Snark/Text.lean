import Verif.Snark.Ec
import Verif.Text.ElemLemmas

/-!
SNARK build: square root, text form of field elements and points, `EcT::set`.  The conversion of a `Vuint` from and to text does
not depend on p and is that of `Text/Model.lean`.
-/

namespace Verif.Snark

open Verif.Ec Verif.Text

/-! ### Square root -/

/-- the end of `Fp::squareRoot`, zm2.h:301-303: y is written on success only -/
def storeRoot (t y x : C1) : Bool × C1 := if Fp.eq (t * t).n x.n then (true, t) else (false, y)
/-- `Fp::squareRoot`, zm2.h:297-304: the returned boolean and the object `y` afterwards -/
def squareRoot (y x : C1) : Bool × C1 := storeRoot (power x pAdd1Div4V) y x

theorem C1.den_mul (x y : C1) : (x * y).den = x.den * y.den := hom1.mul x y
theorem C1.den_one : (1 : C1).den = 1 := residue_montR

theorem root_den (x : C1) : (power x pAdd1Div4V).den = x.den ^ ((p + 1) / 4) := by
  rw [power_map C1.den C1.den_mul C1.den_one, power_eq _ pAdd1Div4V_wf.1.isWords, pAdd1Div4V_wf.2]

theorem eq_den (x y : C1) : Fp.eq x.n y.n = true ↔ x.den = y.den := by
  rw [C1.den_inj, Fp.eq_iff (lt_W x.lt) (lt_W y.lt)]
  exact ⟨C1.ext, congrArg _⟩

theorem root_of_square (x : C1) (s : ZMod p) (h : s * s = x.den) :
    x.den ^ ((p + 1) / 4) * x.den ^ ((p + 1) / 4) = x.den := by
  have h4 : 2 * ((p + 1) / 4) + 2 * ((p + 1) / 4) = p + 1 := by rw [p_eq]
  rw [← h, ← pow_two s, ← pow_mul, ← pow_add, h4, pow_succ, ZMod.pow_card, pow_two]

/-! ### Text -/

/-- `Fp::set(const std::string&)`, zm2.h:67-70 -/
def setStr (s : List Char) : Res ℕ := do
  let v ← Text.set s
  Snark.set v
/-- `Fp::toString`, zm2.h:250 -/
def toStr (base : ℕ) (x : ℕ) : Res (List Char) := do
  let v ← Snark.get x
  Text.toString v base
/-- `operator>>(std::istream&, Fp&)`, zm2.h:120-126 -/
def read (s : Stream) : Res (ℕ × Stream) := do
  let r := getDigits s
  let x ← setStr r.1
  pure (x, r.2)

/-- `Fp2T::toString`, bn.h:521-524 -/
def toStr2 (base : ℕ) (x : R2) : Res (List Char) := do
  let a ← toStr base x.a
  let b ← toStr base x.b
  pure (['['] ++ a ++ [','] ++ b ++ [']'])
/-- `operator>>(std::istream&, Fp2T&)`, bn.h:529-535 -/
def read2 (s : Stream) : Res (R2 × Stream) := do
  let cl := s.getChar
  let a ← read cl.2
  let cm := a.2.getChar
  let b ← read cm.2
  let cr := b.2.getChar
  wants [(cl.1, '['), (cm.1, ','), (cr.1, ']')]
  pure (⟨a.1, b.1⟩, cr.2)
/-- `Fp2T::set(const std::string&)`, bn.h:543-547 -/
def setStr2 (s : List Char) : Res R2 := do
  let r ← read2 ⟨s, false⟩
  pure r.1
/-- `operator<<(std::ostream&, const Fp6T&)`, bn.h:970-973; base 16 when the stream has the flag `hex` -/
def toStr6 (base : ℕ) (x : R6) : Res (List Char) := do
  let a ← toStr2 base x.a
  let b ← toStr2 base x.b
  let c ← toStr2 base x.c
  pure (['['] ++ a ++ [',', '\n', ' '] ++ b ++ [',', '\n', ' '] ++ c ++ [']'])
/-- `operator>>(std::istream&, Fp6T&)`, bn.h:974-980 -/
def read6 (s : Stream) : Res (R6 × Stream) := do
  let c1 := s.getChar
  let a ← read2 c1.2
  let c2 := a.2.getChar
  let b ← read2 c2.2
  let c3 := b.2.getChar
  let c ← read2 c3.2
  let c4 := c.2.getChar
  wants [(c1.1, '['), (c2.1, ','), (c3.1, ','), (c4.1, ']')]
  pure (⟨a.1, b.1, c.1⟩, c4.2)
/-- `operator<<(std::ostream&, const Fp12T&)`, bn.h:1421-1424 -/
def toStr12 (base : ℕ) (x : R12) : Res (List Char) := do
  let a ← toStr6 base x.a
  let b ← toStr6 base x.b
  pure (['['] ++ a ++ [',', '\n', ' '] ++ b ++ [']'])
/-- `operator>>(std::istream&, Fp12T&)`, bn.h:1425-1431 -/
def read12 (s : Stream) : Res (R12 × Stream) := do
  let c1 := s.getChar
  let a ← read6 c1.2
  let c2 := a.2.getChar
  let b ← read6 c2.2
  let c3 := b.2.getChar
  wants [(c1.1, '['), (c2.1, ','), (c3.1, ']')]
  pure (⟨a.1, b.1⟩, c3.2)

/-- `Fp::set` and `Fp2T::set` as objects; a value outside the canonical range does not occur (`set_can`, `set2_can`) -/
def setC1 (s : List Char) : Res C1 := do
  let v ← setStr s
  if h : v < p then .ok ⟨v, h⟩ else .ub
def setC2 (s : List Char) : Res C2 := do
  let v ← setStr2 s
  if h : v.SCan then .ok ⟨v, h⟩ else .ub

/-- the text routines used by `EcT` -/
instance : TextF C1 := ⟨fun x => toStr 16 x.n, setC1⟩
instance : TextF C2 := ⟨fun x => toStr2 16 x.v, setC2⟩

/-- `EcT::set(x, y, z, verify)`, bn.h:2851-2859, and `EcT::set(x, y, verify)`, bn.h:2842-2850, which is the same with z = 1 -/
def setPt {K : Type} (valid : J K → Res Bool) (P : J K) (verify : Bool) : Res (J K) :=
  if verify then do
    let v ← valid P
    if v then .ok P else .throw
  else .ok P

/-! ### Lemmas -/

theorem num_round {base : ℕ} (hb : base = 10 ∨ base = 16) {x : ℕ} (hx : x < p) : ∃ s, toStr base x = .ok s ∧ setStr s = .ok x ∧
    (∀ c ∈ s, numChar c) ∧ ∀ ws rest : List Char, (∀ c ∈ ws, isSpace c = true) → Stops rest →
      read ⟨ws ++ (s ++ rest), false⟩ = .ok (x, ⟨rest, rest.isEmpty⟩) := by
  have fin : ∀ s, toStr base x = .ok s → setStr s = .ok x → (∀ c ∈ s, numChar c) →
      (∀ ws rest : List Char, (∀ c ∈ ws, isSpace c = true) → Stops rest →
        getDigits ⟨ws ++ (s ++ rest), false⟩ = (s, ⟨rest, rest.isEmpty⟩)) →
      ∃ s, toStr base x = .ok s ∧ setStr s = .ok x ∧ (∀ c ∈ s, numChar c) ∧
        ∀ ws rest : List Char, (∀ c ∈ ws, isSpace c = true) → Stops rest →
        read ⟨ws ++ (s ++ rest), false⟩ = .ok (x, ⟨rest, rest.isEmpty⟩) := by
    intro s h1 h2 h3 h4
    refine ⟨s, h1, h2, h3, fun ws rest hw hr => ?_⟩
    unfold read
    rw [h4 ws rest hw hr]
    dsimp only
    rw [h2]
    rfl
  obtain ⟨z, ez, wz, hz, rz⟩ := get_spec hx
  have hl : z.length ≤ 4 := by
    have h4 := p_lt_W
    exact Fp.length_le_of_lt 4 wz (by norm_num; omega) (by norm_num)
  have hset : Snark.set z = .ok x := by
    obtain ⟨y, e, hy, hr⟩ := set_spec wz (by omega)
    rw [e, residue_inj hy hx (hr.trans rz)]
  have hlt : val z < 2 ^ 512 := (wf_len9 wz).1 (by omega)
  rcases hb with rfl | rfl
  · obtain ⟨h1, h2⟩ := toDigits_props (b := 10) (by norm_num) (by norm_num) (val z)
    refine fin (Nat.toDigits 10 (val z)) ?_ ?_ (fun c hc => .inl (isDig_mono (h2 c hc))) ?_
    · unfold toStr
      rw [ez, Res.bind_ok]
      unfold Text.toString
      rw [if_pos rfl, toDec_spec wz]
    · obtain ⟨w, ew, ww, vw⟩ := set_toDec (n := val z) (lt_of_le_of_lt (Nat.div_le_self _ _) hlt)
      unfold setStr
      rw [ew, Res.bind_ok, WF.ext ww wz vw, hset]
    · intro ws rest hw hr
      exact getDigits_dec hw Nat.toDigits_ne_nil (fun c hc => isDig_mono (h2 c hc)) hr
  · obtain ⟨h1, h2⟩ := toDigits_props (b := 16) (by norm_num) (by norm_num) (val z)
    refine fin ('0' :: 'x' :: Nat.toDigits 16 (val z)) ?_ ?_ ?_ ?_
    · unfold toStr
      rw [ez, Res.bind_ok]
      unfold Text.toString
      rw [if_neg (by norm_num), if_pos rfl, toHex_spec wz]; rfl
    · obtain ⟨w, ew, ww, vw⟩ := set_toHex (wf_lt wz)
      unfold setStr
      rw [ew, Res.bind_ok, WF.ext ww wz vw, hset]
    · intro c hc
      rw [List.mem_cons, List.mem_cons] at hc
      rcases hc with rfl | rfl | hc
      · left; decide
      · right; rfl
      · exact .inl (h2 c hc)
    · intro ws rest hw hr
      exact getDigits_hex hw h2 hr

theorem r2_round {base : ℕ} (hb : base = 10 ∨ base = 16) {x : R2} (hx : x.SCan) : ∃ s, toStr2 base x = .ok s ∧
    (∀ c ∈ s, f2Char c) ∧ ∀ ws rest : List Char, (∀ c ∈ ws, isSpace c = true) →
      read2 ⟨ws ++ (s ++ rest), false⟩ = .ok (x, ⟨rest, false⟩) := by
  obtain ⟨s, a1, -, a3, a4⟩ := num_round hb hx.1
  obtain ⟨t, b1, -, b3, b4⟩ := num_round hb hx.2
  refine ⟨['['] ++ s ++ [','] ++ t ++ [']'], ?_, ?_, ?_⟩
  · unfold toStr2
    rw [a1, Res.bind_ok, b1, Res.bind_ok]
    rfl
  · intro c hc
    simp only [List.mem_append, List.mem_singleton] at hc
    rcases hc with (((h | h) | h) | h) | h
    · exact .inr (.inl h)
    · exact .inl (a3 c h)
    · exact .inr (.inr (.inl h))
    · exact .inl (b3 c h)
    · exact .inr (.inr (.inr h))
  · intro ws rest hw
    have e : ['['] ++ s ++ [','] ++ t ++ [']'] ++ rest = '[' :: (s ++ ',' :: (t ++ ']' :: rest)) := by simp
    rw [e]
    unfold read2
    rw [getChar_spec hw (by decide)]
    dsimp only
    have r1 := a4 [] (',' :: (t ++ ']' :: rest)) (by simp) (stops_of (by decide) (by decide) _)
    rw [List.nil_append] at r1
    rw [r1, Res.bind_ok]
    dsimp only
    rw [List.isEmpty_cons, getChar_spec0 (by decide)]
    dsimp only
    have r2 := b4 [] (']' :: rest) (by simp) (stops_of (by decide) (by decide) _)
    rw [List.nil_append] at r2
    rw [r2, Res.bind_ok]
    dsimp only
    rw [List.isEmpty_cons, getChar_spec0 (by decide)]
    rfl

theorem r6_round {base : ℕ} (hb : base = 10 ∨ base = 16) {x : R6} (hx : x.SCan) : ∃ s, toStr6 base x = .ok s ∧
    ∀ ws rest : List Char, (∀ c ∈ ws, isSpace c = true) → read6 ⟨ws ++ (s ++ rest), false⟩ = .ok (x, ⟨rest, false⟩) := by
  obtain ⟨s, a1, -, a4⟩ := r2_round hb hx.1
  obtain ⟨t, b1, -, b4⟩ := r2_round hb hx.2.1
  obtain ⟨u, c1, -, c4⟩ := r2_round hb hx.2.2
  refine ⟨['['] ++ s ++ [',', '\n', ' '] ++ t ++ [',', '\n', ' '] ++ u ++ [']'], ?_, ?_⟩
  · unfold toStr6
    rw [a1, Res.bind_ok, b1, Res.bind_ok, c1, Res.bind_ok]
    rfl
  · intro ws rest hw
    have e : ['['] ++ s ++ [',', '\n', ' '] ++ t ++ [',', '\n', ' '] ++ u ++ [']'] ++ rest =
        '[' :: ([] ++ (s ++ ',' :: (['\n', ' '] ++ (t ++ ',' :: (['\n', ' '] ++ (u ++ ']' :: rest)))))) := by simp
    rw [e]
    unfold read6
    rw [getChar_spec hw (by decide)]
    dsimp only
    rw [a4 [] _ (by simp), Res.bind_ok]
    dsimp only
    rw [getChar_spec0 (by decide)]
    dsimp only
    rw [b4 ['\n', ' '] _ (by decide), Res.bind_ok]
    dsimp only
    rw [getChar_spec0 (by decide)]
    dsimp only
    rw [c4 ['\n', ' '] _ (by decide), Res.bind_ok]
    dsimp only
    rw [getChar_spec0 (by decide)]
    rfl

theorem r12_round {base : ℕ} (hb : base = 10 ∨ base = 16) {x : R12} (hx : x.SCan) : ∃ s, toStr12 base x = .ok s ∧
    ∀ ws rest : List Char, (∀ c ∈ ws, isSpace c = true) → read12 ⟨ws ++ (s ++ rest), false⟩ = .ok (x, ⟨rest, false⟩) := by
  obtain ⟨s, a1, a4⟩ := r6_round hb hx.1
  obtain ⟨t, b1, b4⟩ := r6_round hb hx.2
  refine ⟨['['] ++ s ++ [',', '\n', ' '] ++ t ++ [']'], ?_, ?_⟩
  · unfold toStr12
    rw [a1, Res.bind_ok, b1, Res.bind_ok]
    rfl
  · intro ws rest hw
    have e : ['['] ++ s ++ [',', '\n', ' '] ++ t ++ [']'] ++ rest =
        '[' :: ([] ++ (s ++ ',' :: (['\n', ' '] ++ (t ++ ']' :: rest)))) := by simp
    rw [e]
    unfold read12
    rw [getChar_spec hw (by decide)]
    dsimp only
    rw [a4 [] _ (by simp), Res.bind_ok]
    dsimp only
    rw [getChar_spec0 (by decide)]
    dsimp only
    rw [b4 ['\n', ' '] _ (by decide), Res.bind_ok]
    dsimp only
    rw [getChar_spec0 (by decide)]
    rfl

theorem textOk_c1 : TextOk C1 := by
  intro x
  obtain ⟨s, h1, h2, h3, -⟩ := num_round (.inr rfl) x.lt
  refine ⟨s, h1, fun c hc => .inl (h3 c hc), ?_⟩
  show setC1 s = _
  unfold setC1
  rw [h2, Res.bind_ok, dif_pos x.lt]

theorem textOk_c2 : TextOk C2 := by
  intro x
  obtain ⟨s, h1, h2, h3⟩ := r2_round (.inr rfl) x.can
  refine ⟨s, h1, h2, ?_⟩
  show setC2 s = _
  have := h3 [] [] (by simp)
  rw [List.nil_append, List.append_nil] at this
  unfold setC2 setStr2
  rw [this]
  show (if h : x.v.SCan then (.ok ⟨x.v, h⟩ : Res C2) else .ub) = _
  rw [dif_pos x.can]

end Verif.Snark
