import Verif.Text.Elem
import Verif.Fp.Fallback

/-! Round trips of field elements and points. -/

namespace Verif

open Text

/-- characters of a printed number -/
def numChar (c : Char) : Prop := isDig 16 c = true ∨ c = 'x'

theorem fe_round (base : ℕ) (hb : base = 10 ∨ base = 16) (x : Fe) : ∃ s, Fe.toStr base x = .ok s ∧ Fe.setStr s = .ok x ∧
    (∀ c ∈ s, numChar c) ∧ ∀ ws rest : List Char, (∀ c ∈ ws, isSpace c = true) → Stops rest →
      getDigits ⟨ws ++ (s ++ rest), false⟩ = (s, ⟨rest, rest.isEmpty⟩) := by
  obtain ⟨z, ez, wz, hz, rz⟩ := Fp.get_spec x.lt
  have hl : z.length ≤ 4 := by
    have h4 := Fp.p_lt_W
    exact Fp.length_le_of_lt 4 wz (by norm_num; omega) (by norm_num)
  have hset : Fe.setV z = .ok x := by
    obtain ⟨y, e, hr⟩ := Fe.setV_ok wz (by omega)
    rw [e]
    rw [rz] at hr
    have := Fp.residue_inj y.lt x.lt hr
    cases y; cases x
    simp only at this
    subst this
    rfl
  have hlt : val z < 2 ^ 512 := (wf_len9 wz).1 (by omega)
  rcases hb with rfl | rfl
  · obtain ⟨h1, h2⟩ := toDigits_props (b := 10) (by norm_num) (by norm_num) (val z)
    refine ⟨Nat.toDigits 10 (val z), ?_, ?_, fun c hc => .inl (isDig_mono (h2 c hc)), ?_⟩
    · unfold Fe.toStr
      rw [ez, Res.bind_ok]
      unfold Text.toString
      rw [if_pos rfl, toDec_spec wz]
    · obtain ⟨w, ew, ww, vw⟩ := set_toDec (n := val z) (lt_of_le_of_lt (Nat.div_le_self _ _) hlt)
      unfold Fe.setStr
      rw [ew, Res.bind_ok, WF.ext ww wz vw, hset]
    · intro ws rest hw hr
      exact getDigits_dec hw Nat.toDigits_ne_nil (fun c hc => isDig_mono (h2 c hc)) hr
  · obtain ⟨h1, h2⟩ := toDigits_props (b := 16) (by norm_num) (by norm_num) (val z)
    refine ⟨'0' :: 'x' :: Nat.toDigits 16 (val z), ?_, ?_, ?_, ?_⟩
    · unfold Fe.toStr
      rw [ez, Res.bind_ok]
      unfold Text.toString
      rw [if_neg (by norm_num), if_pos rfl, toHex_spec wz]; rfl
    · obtain ⟨w, ew, ww, vw⟩ := set_toHex (wf_lt wz)
      unfold Fe.setStr
      rw [ew, Res.bind_ok, WF.ext ww wz vw, hset]
    · intro c hc
      rw [List.mem_cons, List.mem_cons] at hc
      rcases hc with rfl | rfl | hc
      · left; decide
      · right; rfl
      · exact .inl (h2 c hc)
    · intro ws rest hw hr
      exact getDigits_hex hw h2 hr

theorem getChar_spec {ws : List Char} (hw : ∀ c ∈ ws, isSpace c = true) {c : Char} (hc : isSpace c = false) (r : List Char) :
    Stream.getChar ⟨ws ++ c :: r, false⟩ = (some c, ⟨r, false⟩) := by
  unfold Stream.getChar
  dsimp only
  rw [if_neg Bool.false_ne_true, dropWhile_spaces hw, List.dropWhile_cons_of_neg (by simp [hc])]

theorem getChar_spec0 {c : Char} (hc : isSpace c = false) (r : List Char) :
    Stream.getChar ⟨c :: r, false⟩ = (some c, ⟨r, false⟩) := getChar_spec (ws := []) (by simp) hc r

theorem stops_of {c : Char} (h : isDig 16 c = false) (h' : c ≠ 'x') (r : List Char) : Stops (c :: r) := by
  intro d r' e
  rw [List.cons.injEq] at e
  rw [← e.1]
  exact ⟨h, h'⟩

theorem fe_read {base : ℕ} (hb : base = 10 ∨ base = 16) (x : Fe) : ∃ s, Fe.toStr base x = .ok s ∧ Fe.setStr s = .ok x ∧
    (∀ c ∈ s, numChar c) ∧ ∀ ws rest : List Char, (∀ c ∈ ws, isSpace c = true) → Stops rest →
      Fe.read ⟨ws ++ (s ++ rest), false⟩ = .ok (x, ⟨rest, rest.isEmpty⟩) := by
  obtain ⟨s, h1, h2, h3, h4⟩ := fe_round base hb x
  refine ⟨s, h1, h2, h3, fun ws rest hw hr => ?_⟩
  unfold Fe.read
  rw [h4 ws rest hw hr]
  dsimp only
  rw [h2]
  rfl

/-- characters of a printed pair -/
def f2Char (c : Char) : Prop := numChar c ∨ c = '[' ∨ c = ',' ∨ c = ']'

theorem f2_read {base : ℕ} (hb : base = 10 ∨ base = 16) (x : F2) : ∃ s, F2.toStr base x = .ok s ∧ (∀ c ∈ s, f2Char c) ∧
    ∀ ws rest : List Char, (∀ c ∈ ws, isSpace c = true) → F2.read ⟨ws ++ (s ++ rest), false⟩ = .ok (x, ⟨rest, false⟩) := by
  obtain ⟨s, a1, -, a3, a4⟩ := fe_read hb x.a
  obtain ⟨t, b1, -, b3, b4⟩ := fe_read hb x.b
  refine ⟨['['] ++ s ++ [','] ++ t ++ [']'], ?_, ?_, ?_⟩
  · unfold F2.toStr
    rw [a1, Res.bind_ok, b1, Res.bind_ok]
    rfl
  · intro c hc
    simp only [List.mem_append, List.mem_singleton] at hc
    rcases hc with (((h | h) | h) | h) | h
    · exact .inr (.inl h)
    · exact .inl (a3 c h)
    · exact .inr (.inr (.inl h))
    · exact .inl (b3 c h)
    · exact .inr (.inr (.inr h))
  · intro ws rest hw
    have e : ['['] ++ s ++ [','] ++ t ++ [']'] ++ rest = '[' :: (s ++ ',' :: (t ++ ']' :: rest)) := by simp
    rw [e]
    unfold F2.read
    rw [getChar_spec hw (by decide)]
    dsimp only
    have r1 := a4 [] (',' :: (t ++ ']' :: rest)) (by simp) (stops_of (by decide) (by decide) _)
    rw [List.nil_append] at r1
    rw [r1, Res.bind_ok]
    dsimp only
    rw [List.isEmpty_cons, getChar_spec0 (by decide)]
    dsimp only
    have r2 := b4 [] (']' :: rest) (by simp) (stops_of (by decide) (by decide) _)
    rw [List.nil_append] at r2
    rw [r2, Res.bind_ok]
    dsimp only
    rw [List.isEmpty_cons, getChar_spec0 (by decide)]
    rfl

theorem f6_read {base : ℕ} (hb : base = 10 ∨ base = 16) (x : F6) : ∃ s, F6.toStr base x = .ok s ∧
    ∀ ws rest : List Char, (∀ c ∈ ws, isSpace c = true) → F6.read ⟨ws ++ (s ++ rest), false⟩ = .ok (x, ⟨rest, false⟩) := by
  obtain ⟨s, a1, -, a4⟩ := f2_read hb x.a
  obtain ⟨t, b1, -, b4⟩ := f2_read hb x.b
  obtain ⟨u, c1, -, c4⟩ := f2_read hb x.c
  refine ⟨['['] ++ s ++ [',', '\n', ' '] ++ t ++ [',', '\n', ' '] ++ u ++ [']'], ?_, ?_⟩
  · unfold F6.toStr
    rw [a1, Res.bind_ok, b1, Res.bind_ok, c1, Res.bind_ok]
    rfl
  · intro ws rest hw
    have e : ['['] ++ s ++ [',', '\n', ' '] ++ t ++ [',', '\n', ' '] ++ u ++ [']'] ++ rest =
        '[' :: ([] ++ (s ++ ',' :: (['\n', ' '] ++ (t ++ ',' :: (['\n', ' '] ++ (u ++ ']' :: rest)))))) := by simp
    rw [e]
    unfold F6.read
    rw [getChar_spec hw (by decide)]
    dsimp only
    rw [a4 [] _ (by simp), Res.bind_ok]
    dsimp only
    rw [getChar_spec0 (by decide)]
    dsimp only
    rw [b4 ['\n', ' '] _ (by decide), Res.bind_ok]
    dsimp only
    rw [getChar_spec0 (by decide)]
    dsimp only
    rw [c4 ['\n', ' '] _ (by decide), Res.bind_ok]
    dsimp only
    rw [getChar_spec0 (by decide)]
    rfl

theorem f12_read {base : ℕ} (hb : base = 10 ∨ base = 16) (x : F12) : ∃ s, F12.toStr base x = .ok s ∧
    ∀ ws rest : List Char, (∀ c ∈ ws, isSpace c = true) → F12.read ⟨ws ++ (s ++ rest), false⟩ = .ok (x, ⟨rest, false⟩) := by
  obtain ⟨s, a1, a4⟩ := f6_read hb x.a
  obtain ⟨t, b1, b4⟩ := f6_read hb x.b
  refine ⟨['['] ++ s ++ [',', '\n', ' '] ++ t ++ [']'], ?_, ?_⟩
  · unfold F12.toStr
    rw [a1, Res.bind_ok, b1, Res.bind_ok]
    rfl
  · intro ws rest hw
    have e : ['['] ++ s ++ [',', '\n', ' '] ++ t ++ [']'] ++ rest =
        '[' :: ([] ++ (s ++ ',' :: (['\n', ' '] ++ (t ++ ']' :: rest)))) := by simp
    rw [e]
    unfold F12.read
    rw [getChar_spec hw (by decide)]
    dsimp only
    rw [a4 [] _ (by simp), Res.bind_ok]
    dsimp only
    rw [getChar_spec0 (by decide)]
    dsimp only
    rw [b4 ['\n', ' '] _ (by decide), Res.bind_ok]
    dsimp only
    rw [getChar_spec0 (by decide)]
    rfl

/-! ### points -/

theorem f2Char_not {c : Char} (h : f2Char c) : isSpace c = false ∧ c ≠ '_' ∧ c ≠ '\x00' := by
  have aux : ∀ d : Char, isDig 16 d = false → d ≠ 'x' → d ≠ '[' → d ≠ ',' → d ≠ ']' → c ≠ d := by
    intro d h1 h2 h3 h4 h5 e
    subst e
    rcases h with (h | h) | h | h | h
    · rw [h1] at h; simp at h
    · exact h2 h
    · exact h3 h
    · exact h4 h
    · exact h5 h
  refine ⟨?_, aux _ (by decide) (by decide) (by decide) (by decide) (by decide),
    aux _ (by decide) (by decide) (by decide) (by decide) (by decide)⟩
  rcases h with (h | h) | h | h | h
  · exact isDig_not_space h
  all_goals subst h; decide

/-- a word ends at white space or at the end of the text -/
def WordEnd (rest : List Char) : Prop := ∀ c r, rest = c :: r → isSpace c = true

theorem getWord_spec {ws w rest : List Char} (hw : ∀ c ∈ ws, isSpace c = true) (hne : w ≠ []) (hc : ∀ c ∈ w, isSpace c = false)
    (hr : WordEnd rest) : Stream.getWord ⟨ws ++ (w ++ rest), false⟩ = (w, ⟨rest, false⟩) := by
  unfold Stream.getWord
  dsimp only
  have e1 : (w ++ rest).dropWhile isSpace = w ++ rest := by
    obtain ⟨c, r, rfl⟩ := List.exists_cons_of_ne_nil hne
    rw [List.cons_append, List.dropWhile_cons_of_neg (by simp [hc c (by simp)])]
  have e2 : (w ++ rest).takeWhile (fun c => !isSpace c) = w := by
    rw [List.takeWhile_append_of_pos (fun c h => by simp [hc c h])]
    cases rest with
    | nil => simp
    | cons c r => rw [List.takeWhile_cons_of_neg (by simp [hr c r rfl])]; simp
  rw [if_neg Bool.false_ne_true, dropWhile_spaces hw, e1, e2, List.drop_left]
  have : w.isEmpty = false := by simpa using hne
  rw [this]

/-- what the coordinate field has to provide -/
def TextOk (K : Type) [TextF K] : Prop :=
  ∀ x : K, ∃ s : List Char, TextF.toStr16 x = .ok s ∧ (∀ c ∈ s, f2Char c) ∧ TextF.setStr s = .ok x

theorem textOk_fe : TextOk Fe := by
  intro x
  obtain ⟨s, h1, h2, h3, -⟩ := fe_read (.inr rfl) x
  exact ⟨s, h1, fun c hc => .inl (h3 c hc), h2⟩

theorem textOk_f2 : TextOk F2 := by
  intro x
  obtain ⟨s, h1, h2, h3⟩ := f2_read (.inr rfl) x
  refine ⟨s, h1, h2, ?_⟩
  show F2.setStr s = _
  unfold F2.setStr
  have := h3 [] [] (by simp)
  rw [List.nil_append, List.append_nil] at this
  rw [this]; rfl

namespace Ec

variable {K : Type} [Add K] [Sub K] [Mul K] [Neg K] [Inv K] [Zero K] [One K] [FF K] [TextF K]

omit [Add K] [Sub K] [Neg K] in
theorem read_toStr (hK : TextOk K) (P : J K) : ∃ s, toStr P = .ok s ∧ ∀ ws rest : List Char, (∀ c ∈ ws, isSpace c = true) →
    WordEnd rest → read ⟨ws ++ (s ++ rest), false⟩ =
      .ok (if isInf P then clear else ⟨(normalize P).x, (normalize P).y, 1⟩, ⟨rest, false⟩) := by
  unfold toStr
  by_cases hP : isInf P = true
  · rw [if_pos hP]
    refine ⟨_, rfl, fun ws rest hw hr => ?_⟩
    unfold read
    rw [getWord_spec hw (by simp) (by decide) hr]
    dsimp only
    rw [if_pos rfl, if_pos hP]
  · rw [if_neg hP]
    obtain ⟨s, s1, s2, s3⟩ := hK (normalize P).x
    obtain ⟨t, t1, t2, t3⟩ := hK (normalize P).y
    dsimp only
    rw [s1, Res.bind_ok, t1, Res.bind_ok]
    refine ⟨_, rfl, fun ws rest hw hr => ?_⟩
    have hs : ∀ c ∈ s ++ ['_'] ++ t, isSpace c = false := by
      intro c hc
      simp only [List.mem_append, List.mem_singleton] at hc
      rcases hc with (h | h) | h
      · exact (f2Char_not (s2 c h)).1
      · subst h; decide
      · exact (f2Char_not (t2 c h)).1
    have hnot : '_' ∉ s := fun h => (f2Char_not (s2 _ h)).2.1 rfl
    have hidx : (s ++ ['_'] ++ t).idxOf '_' = s.length := by
      rw [List.append_assoc, List.idxOf_append_of_notMem hnot]
      simp
    have c1 : ∀ u : List Char, (∀ c ∈ u, f2Char c) → cstr u = u := by
      intro u hu
      unfold cstr
      rw [List.takeWhile_eq_self_iff]
      intro c hc
      simpa using (f2Char_not (hu c hc)).2.2
    unfold read
    rw [getWord_spec hw (by simp) hs hr]
    dsimp only
    have hne : s ++ ['_'] ++ t ≠ ['0'] := by
      intro h
      have : '_' ∈ (['0'] : List Char) := by rw [← h]; simp
      simp at this
    rw [if_neg hne, if_neg (by simp), hidx]
    have e1 : (s ++ ['_'] ++ t).take s.length = s := by rw [List.append_assoc, List.take_left]
    have e2 : (s ++ ['_'] ++ t).drop (s.length + 1) = t := by
      rw [show s.length + 1 = (s ++ ['_']).length from by simp, List.drop_left]
    rw [e1, e2, c1 s s2, c1 t t2, s3, Res.bind_ok, t3, Res.bind_ok, if_neg hP]
    rfl

end Ec
end Verif
