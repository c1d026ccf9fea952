import Verif.Text.ElemLemmas
import Verif.Props.Ec
import Mathlib.Data.Nat.Digits.Defs

/-! Text form of numbers (C08, C09, C10), field elements (C22, C55) and points (C41). -/

namespace Verif

open Text

/-- white space -/
def Blank (ws : List Char) : Prop := ∀ c ∈ ws, c ∈ [' ', '\t', '\n', '\x0b', '\x0c', '\r']

/-- the text after a number does not continue it -/
def NotDigit (rest : List Char) : Prop :=
  ∀ c r, rest = c :: r → ¬(('0' ≤ c ∧ c ≤ '9') ∨ ('a' ≤ c ∧ c ≤ 'f') ∨ ('A' ≤ c ∧ c ≤ 'F') ∨ c = 'x')

theorem Blank.space {ws : List Char} (h : Blank ws) : ∀ c ∈ ws, isSpace c = true := by
  intro c hc
  have := h c hc
  simp only [List.mem_cons, List.not_mem_nil, or_false] at this
  rcases this with rfl | rfl | rfl | rfl | rfl | rfl <;> decide

theorem NotDigit.stops {rest : List Char} (h : NotDigit rest) : Stops rest := by
  intro c r e
  have := h c r e
  refine ⟨?_, fun hx => this (by tauto)⟩
  by_contra hc
  have := isDig_range.1 (Bool.eq_true_of_not_eq_false hc)
  tauto

/-! ### C08 -/

/-- C08: decimal output is the canonical numeral. -/
theorem C08_toString {x : List ℕ} (hx : WF x) : Text.toString x 10 = .ok (Nat.toDigits 10 (val x)) := toDec_spec hx

/-- C08: reading the decimal output of x gives x if x has at most 8 words; in general it gives x or exits, and exits
exactly when x / 10^9 needs more than 8 words. -/
theorem C08_round {x : List ℕ} (hx : WF x) : ∃ s, Text.toString x 10 = .ok s ∧
    (x.length ≤ 8 → set s = .ok x) ∧ (val x / 10 ^ 9 < 2 ^ 512 → set s = .ok x) ∧
    (2 ^ 512 ≤ val x / 10 ^ 9 → set s = .exit) := by
  have h : val x / 1000000000 < 2 ^ 512 → set (Nat.toDigits 10 (val x)) = .ok x := by
    intro h
    obtain ⟨z, e, wz, vz⟩ := set_toDec h
    rw [e, WF.ext wz hx vz]
  rw [show (10 : ℕ) ^ 9 = 1000000000 from by norm_num]
  exact ⟨_, toDec_spec hx, fun hl => h (lt_of_le_of_lt (Nat.div_le_self _ _) ((wf_len9 hx).1 hl)), h,
    fun h => set_toDec_exit h (wf_lt hx)⟩

example : WF [7, 0, 5] ∧ Text.toString [7, 0, 5] 10 = .ok "1701411834604692317316873037158841057287".toList ∧
    set "1701411834604692317316873037158841057287".toList = .ok [7, 0, 5] := by decide +kernel

/-- C08: through streams; white space before the numeral is skipped, the character after it is left. -/
theorem C08_stream {x : List ℕ} (hx : WF x) (hl : x.length ≤ 8) : ∃ s, Text.toString x 10 = .ok s ∧
    ∀ ws rest, Blank ws → NotDigit rest → Text.read ⟨ws ++ (s ++ rest), false⟩ = .ok (x, ⟨rest, rest.isEmpty⟩) := by
  refine ⟨_, toDec_spec hx, fun ws rest hw hr => ?_⟩
  obtain ⟨s, e, h, -⟩ := C08_round hx
  obtain rfl := Res.ok.inj ((toDec_spec hx).symm.trans e)
  have h2 := (toDigits_props (b := 10) (by norm_num) (by norm_num) (val x)).2
  unfold Text.read
  rw [getDigits_dec hw.space Nat.toDigits_ne_nil (fun c hc => isDig_mono (h2 c hc)) hr.stops]
  dsimp only
  rw [h hl]
  rfl

example : Text.read ⟨" 18446744073709551617,5".toList, false⟩ = .ok ([1, 1], ⟨",5".toList, false⟩) := by decide +kernel

/-! ### C09 -/

/-- C09: hexadecimal output is 0x and the canonical numeral. -/
theorem C09_toString {x : List ℕ} (hx : WF x) : Text.toString x 16 = .ok ('0' :: 'x' :: Nat.toDigits 16 (val x)) := by
  unfold Text.toString
  rw [if_neg (by norm_num), if_pos rfl, toHex_spec hx]; rfl

/-- C09: reading it gives x, for every x. -/
theorem C09_round {x : List ℕ} (hx : WF x) : ∃ s, Text.toString x 16 = .ok s ∧ set s = .ok x := by
  obtain ⟨z, e, wz, vz⟩ := set_toHex (wf_lt hx)
  exact ⟨_, C09_toString hx, by rw [e, WF.ext wz hx vz]⟩

example : WF [7, 0, 5] ∧ Text.toString [7, 0, 5] 16 = .ok "0x500000000000000000000000000000007".toList ∧
    set "0x500000000000000000000000000000007".toList = .ok [7, 0, 5] := by decide +kernel

/-- C09: through streams. -/
theorem C09_stream {x : List ℕ} (hx : WF x) : ∃ s, Text.toString x 16 = .ok s ∧
    ∀ ws rest, Blank ws → NotDigit rest → Text.read ⟨ws ++ (s ++ rest), false⟩ = .ok (x, ⟨rest, rest.isEmpty⟩) := by
  refine ⟨_, C09_toString hx, fun ws rest hw hr => ?_⟩
  obtain ⟨s, e, h⟩ := C09_round hx
  obtain rfl := Res.ok.inj ((C09_toString hx).symm.trans e)
  have h2 := (toDigits_props (b := 16) (by norm_num) (by norm_num) (val x)).2
  unfold Text.read
  rw [getDigits_hex hw.space h2 hr.stops]
  dsimp only
  rw [h]
  rfl

example : Text.read ⟨"\n0x10000000000000002]".toList, false⟩ = .ok ([2, 1], ⟨"]".toList, false⟩) := by decide +kernel

/-- only the bases 10 and 16 are supported -/
theorem C09_base (x : List ℕ) {base : ℕ} (h : base ≠ 10) (h' : base ≠ 16) : Text.toString x base = .exit := by
  unfold Text.toString
  rw [if_neg h, if_neg h']

/-! ### C10 -/

/-- s is a numeral in base b (small or capital letters) and denotes n -/
def Denotes (b : ℕ) (s : List Char) (n : ℕ) : Prop :=
  ∃ ds : List ℕ, (∀ d ∈ ds, d < b) ∧
    List.Forall₂ (fun c d => c = Nat.digitChar d ∨ c = (Nat.digitChar d).toUpper) s ds ∧ n = Nat.ofDigits b ds.reverse

theorem Denotes.spec {b : ℕ} (hb : b ≤ 16) {s : List Char} {n : ℕ} (h : Denotes b s n) :
    (∀ c ∈ s, isDig b c = true) ∧ numVal b s = n := by
  obtain ⟨ds, hd, hf, rfl⟩ := h
  have key : ∀ d < 16, dig (Nat.digitChar d) = d ∧ dig (Nat.digitChar d).toUpper = d := by decide
  have : ∀ a, s.foldl (fun a c => b * a + dig c) a = a * b ^ s.length + Nat.ofDigits b ds.reverse := by
    induction hf with
    | nil => intro a; simp
    | @cons c d s ds hc hf ih =>
      intro a
      have hdc : dig c = d := by
        have := key d (lt_of_lt_of_le (hd d (by simp)) hb)
        rcases hc with rfl | rfl
        · exact this.1
        · exact this.2
      rw [List.foldl_cons, ih (fun e he => hd e (by simp [he])), List.reverse_cons, Nat.ofDigits_append, List.length_reverse,
        hdc, List.length_cons, hf.length_eq, Nat.ofDigits_singleton, pow_succ]
      ring
  refine ⟨?_, by unfold numVal; rw [this 0]; ring⟩
  intro c hc
  clear this
  induction hf with
  | nil => simp at hc
  | @cons c' d s ds hc' hf ih =>
    rw [List.mem_cons] at hc
    rcases hc with rfl | hc
    · have := key d (lt_of_lt_of_le (hd d (by simp)) hb)
      unfold isDig
      rw [decide_eq_true_eq]
      rcases hc' with h | h <;> rw [h] <;> first | rw [this.1] | rw [this.2]
      all_goals exact hd d (by simp)
    · exact ih (fun e he => hd e (by simp [he])) hc

/-- C10: a decimal numeral without superfluous zero yields the number denoted, or exits for capacity; exactly when. -/
theorem C10_dec {s : List Char} {n : ℕ} (hs : s ≠ []) (h : Denotes 10 s n) (h0 : s = ['0'] ∨ s.head? ≠ some '0')
    (hl : s.length < 2 ^ 31) :
    (n / 10 ^ 9 < 2 ^ 512 → ∃ z, set s = .ok z ∧ WF z ∧ val z = n) ∧ (2 ^ 512 ≤ n / 10 ^ 9 → set s = .exit) := by
  obtain ⟨h1, h2⟩ := h.spec (by norm_num)
  rw [show (10 : ℕ) ^ 9 = 1000000000 from by norm_num, ← h2]
  exact set_dec hs h1 h0 hl

example : Denotes 10 "120".toList 120 :=
  ⟨[1, 2, 0], by decide, .cons (.inl rfl) (.cons (.inl rfl) (.cons (.inl rfl) .nil)), rfl⟩

example : set "120".toList = .ok [120] ∧ set "0".toList = .ok [0] ∧
    (set (Nat.toDigits 10 (2 ^ 512 * 10 ^ 9 - 1)) >>= fun z => .ok (val z)) = .ok (2 ^ 512 * 10 ^ 9 - 1) ∧
    set (Nat.toDigits 10 (2 ^ 512 * 10 ^ 9)) = .exit := by decide +kernel

/-- C10: 0x and hexadecimal digits, in small or capital letters. -/
theorem C10_hex {s : List Char} {n : ℕ} (hs : s ≠ []) (h : Denotes 16 s n) (hl : s.length < 2 ^ 31) :
    (s.length ≤ 144 → ∃ z, set ('0' :: 'x' :: s) = .ok z ∧ WF z ∧ val z = n) ∧
    (144 < s.length → set ('0' :: 'x' :: s) = .exit) := by
  obtain ⟨h1, h2⟩ := h.spec le_rfl
  rw [← h2]
  exact set_hex hs h1 hl

example : Denotes 16 "aF".toList 175 := ⟨[10, 15], by decide, .cons (.inl rfl) (.cons (.inr rfl) .nil), rfl⟩
example : set "0xaF".toList = .ok [175] := by decide +kernel

theorem setPrefix_zero {c : Char} (r : List Char) (b : ℕ) : setPrefix ('0' :: c :: r) b =
    if c = 'x' then (if b ≠ 0 ∧ b ≠ 16 then .exit else .ok (16, r)) else .exit := rfl

/-- C10: a superfluous leading zero makes the program exit. -/
theorem C10_zero {c : Char} (hc : c ≠ 'x') (r : List Char) : set ('0' :: c :: r) = .exit := by
  unfold Text.set
  rw [setPrefix_zero, if_neg hc]
  rfl

example : set "012".toList = .exit := by decide

theorem isDig10_range {c : Char} : isDig 10 c = true → ('0' ≤ c ∧ c ≤ '9') := by
  intro h
  rw [Char.le_def, Char.le_def, UInt32.le_iff_toNat_le, UInt32.le_iff_toNat_le]
  show '0'.toNat ≤ c.toNat ∧ c.toNat ≤ '9'.toNat
  have v : '0'.toNat = 48 ∧ '9'.toNat = 57 := by decide
  rw [v.1, v.2]
  unfold isDig dig at h
  rw [decide_eq_true_eq] at h
  split_ifs at h <;> omega

theorem isSpace_mem {c : Char} (h : isSpace c = true) : c ∈ [' ', '\t', '\n', '\x0b', '\x0c', '\r'] := by
  unfold isSpace at h
  simp only [Bool.or_eq_true, beq_iff_eq, Bool.and_eq_true, decide_eq_true_eq] at h
  rcases h with rfl | ⟨h1, h2⟩
  · simp
  · have e := Char.ofNat_toNat c
    generalize c.toNat = n at *
    subst e
    interval_cases n <;> decide

/-- C10: text with another character than digits, white space and signs is rejected. -/
theorem C10_reject {s : List Char} (h0 : '\x00' ∉ s) (hl : s.length < 2 ^ 31)
    (hc : ∃ c ∈ s, ¬('0' ≤ c ∧ c ≤ '9') ∧ c ∉ [' ', '\t', '\n', '\x0b', '\x0c', '\r'] ∧ c ≠ '-' ∧ c ≠ '+')
    (hx : ∀ r, s ≠ '0' :: 'x' :: r) : set s = .throw ∨ set s = .exit := by
  by_cases hz : ∃ c r, s = '0' :: c :: r
  · obtain ⟨c, r, rfl⟩ := hz
    exact .inr (C10_zero (fun h => hx r (by rw [h])) r)
  · left
    have hp : setPrefix s 0 = .ok (0, []) := by
      unfold setPrefix
      split
      · exact absurd ⟨_, _, rfl⟩ hz
      · rfl
    obtain ⟨c, hc, h1, h2, h3, h4⟩ := hc
    have hr := chunks_reject (b := 10) (w := 9) (by norm_num) s.length s le_rfl h0 ⟨c, hc, by
      rw [← Bool.not_eq_true]
      unfold lenient
      simp only [Bool.or_eq_true, beq_iff_eq, Bool.and_eq_true]
      rintro ((((h | h) | h) | h) | h)
      · exact h1 (isDig10_range h)
      · exact h2 (isSpace_mem h)
      · exact h3 h
      · exact h4 h
      · omega⟩
    unfold Text.set
    rw [hp, Res.bind_ok]
    dsimp only
    rw [if_pos rfl, List.isEmpty_nil, if_pos rfl, if_neg (Nat.not_le.2 hl), if_neg (by norm_num), hr]
    rfl

example : set "12a4".toList = .throw ∧ set "1.5".toList = .throw := by decide +kernel

/-- C10: likewise after 0x, for characters other than hexadecimal digits, white space, signs and x. -/
theorem C10_reject_hex {s : List Char} (h0 : '\x00' ∉ s) (hl : s.length < 2 ^ 31)
    (hc : ∃ c ∈ s, ¬(('0' ≤ c ∧ c ≤ '9') ∨ ('a' ≤ c ∧ c ≤ 'f') ∨ ('A' ≤ c ∧ c ≤ 'F')) ∧
      c ∉ [' ', '\t', '\n', '\x0b', '\x0c', '\r'] ∧ c ≠ '-' ∧ c ≠ '+' ∧ c ≠ 'x' ∧ c ≠ 'X') :
    set ('0' :: 'x' :: s) = .throw := by
  obtain ⟨c, hc, h1, h2, h3, h4, h5, h6⟩ := hc
  have hr := chunks_reject (b := 16) (w := 8) (by norm_num) s.length s le_rfl h0 ⟨c, hc, by
    rw [← Bool.not_eq_true]
    unfold lenient
    simp only [Bool.or_eq_true, beq_iff_eq, Bool.and_eq_true]
    rintro ((((h | h) | h) | h) | h)
    · exact h1 (isDig_range.1 h)
    · exact h2 (isSpace_mem h)
    · exact h3 h
    · exact h4 h
    · tauto⟩
  have hne : s.isEmpty = false := by
    cases s with
    | nil => simp at hc
    | cons => rfl
  unfold Text.set
  rw [setPrefix_zero, if_pos rfl, if_neg (by simp), Res.bind_ok]
  dsimp only
  rw [if_neg (show ¬(16 : ℕ) = 0 by norm_num), hne, if_neg Bool.false_ne_true, if_neg (Nat.not_le.2 hl), if_pos rfl, hr]
  rfl

example : set "0x1g".toList = .throw := by decide +kernel

/-- C10: 0x alone is rejected. -/
theorem C10_prefix_only : set ['0', 'x'] = .throw := by decide +kernel

/-- C10: the empty text counts as zero. -/
theorem C10_empty : set [] = .ok [0] := by decide +kernel

/-- C10 is not true of the code: texts that are no numerals are accepted.  A minus sign gives a number close to 2^32, a
blank at the start of a chunk of nine characters counts as a zero, a second 0x is skipped. -/
theorem C10_lenient : set "-5".toList = .ok [4294967291] ∧ set "1 23456789".toList = .ok [1023456789] ∧
    set "+7".toList = .ok [7] ∧ set "0x0x12".toList = .ok [18] := by decide +kernel

/-! ### C22, C55 -/

/-- C22: printing a field element and parsing the text gives the element back. -/
theorem C22_text (base : ℕ) (hb : base = 10 ∨ base = 16) (x : Fe) :
    ∃ s, Fe.toStr base x = .ok s ∧ Fe.setStr s = .ok x ∧ ∀ ws rest, Blank ws → NotDigit rest →
      Fe.read ⟨ws ++ (s ++ rest), false⟩ = .ok (x, ⟨rest, rest.isEmpty⟩) := by
  obtain ⟨s, h1, h2, -, h4⟩ := fe_read hb x
  exact ⟨s, h1, h2, fun ws rest hw hr => h4 ws rest hw.space hr.stops⟩

/-- C22: the text is the canonical numeral of the number below p that the element stands for. -/
theorem C22_text_value (x : Fe) : ∃ n < Fp.p, (n : ZMod Fp.p) = Fp.residue x.n ∧
    Fe.toStr 10 x = .ok (Nat.toDigits 10 n) ∧ Fe.toStr 16 x = .ok ('0' :: 'x' :: Nat.toDigits 16 n) := by
  obtain ⟨z, ez, wz, hz, rz⟩ := Fp.get_spec x.lt
  refine ⟨val z, hz, rz, ?_, ?_⟩
  · unfold Fe.toStr
    rw [ez, Res.bind_ok, C08_toString wz]
  · unfold Fe.toStr
    rw [ez, Res.bind_ok, C09_toString wz]

example : Fe.toStr 10 (feOf 12) = .ok "12".toList ∧ Fe.toStr 16 (-1 : Fe) =
    .ok "0x2523648240000001ba344d80000000086121000000000013a700000000000012".toList ∧
    Fe.setStr "0x2523648240000001ba344d80000000086121000000000013a700000000000012".toList = .ok (-1 : Fe) := by decide +kernel

/-- C55: elements of the extension fields written to a stream are read back, whatever follows. -/
theorem C55_round (base : ℕ) (hb : base = 10 ∨ base = 16) (x : F2) (y : F6) (z : F12) :
    (∃ s, F2.toStr base x = .ok s ∧ F2.setStr s = .ok x ∧
      ∀ ws rest, Blank ws → F2.read ⟨ws ++ (s ++ rest), false⟩ = .ok (x, ⟨rest, false⟩)) ∧
    (∃ s, F6.toStr base y = .ok s ∧
      ∀ ws rest, Blank ws → F6.read ⟨ws ++ (s ++ rest), false⟩ = .ok (y, ⟨rest, false⟩)) ∧
    (∃ s, F12.toStr base z = .ok s ∧
      ∀ ws rest, Blank ws → F12.read ⟨ws ++ (s ++ rest), false⟩ = .ok (z, ⟨rest, false⟩)) := by
  obtain ⟨s, s1, -, s3⟩ := f2_read hb x
  obtain ⟨t, t1, t3⟩ := f6_read hb y
  obtain ⟨u, u1, u3⟩ := f12_read hb z
  refine ⟨⟨s, s1, ?_, fun ws rest hw => s3 ws rest hw.space⟩, ⟨t, t1, fun ws rest hw => t3 ws rest hw.space⟩,
    ⟨u, u1, fun ws rest hw => u3 ws rest hw.space⟩⟩
  unfold F2.setStr
  have := s3 [] [] (by simp)
  rw [List.nil_append, List.append_nil] at this
  rw [this]; rfl

example : F2.toStr 10 ⟨feOf 3, -feOf 3 + feOf 5⟩ = .ok "[3,2]".toList ∧
    F2.read ⟨" [ 3 , 2 ]x".toList, false⟩ = .ok (⟨feOf 3, feOf 2⟩, ⟨"x".toList, false⟩) := by decide +kernel

theorem blank_takeWhile (l : List Char) : Blank (l.takeWhile isSpace) := by
  intro c hc
  have := List.mem_takeWhile_imp hc
  unfold isSpace at this
  simp only [Bool.or_eq_true, beq_iff_eq, Bool.and_eq_true, decide_eq_true_eq] at this
  simp only [List.mem_cons, List.not_mem_nil, or_false]
  rcases this with h | ⟨h1, h2⟩
  · exact .inl h
  · right
    have hc' : c = Char.ofNat c.toNat := (Char.ofNat_toNat c).symm
    interval_cases c.toNat <;> rw [hc'] <;> decide

theorem getChar_inv {s t : Stream} {c : Char} (h : s.getChar = (some c, t)) :
    s.fail = false ∧ ∃ ws, Blank ws ∧ s.rest = ws ++ c :: t.rest := by
  unfold Stream.getChar at h
  split_ifs at h with hf
  · cases h
  refine ⟨by simpa using hf, s.rest.takeWhile isSpace, blank_takeWhile _, ?_⟩
  have e := List.takeWhile_append_dropWhile (p := isSpace) (l := s.rest)
  split at h
  · cases h
  · rename_i c' r' hd
    cases h
    rw [hd] at e
    exact e.symm

theorem getChar_ok {s t : Stream} {c : Char} (h : s.getChar = (some c, t)) : t.fail = false := by
  unfold Stream.getChar at h
  split_ifs at h
  · cases h
  split at h <;> cases h
  rfl

theorem digitLoop_inv (b : Bool) (l str : List Char) : ∃ d, (digitLoop b l str).1 = str ++ d ∧ l = d ++ (digitLoop b l str).2.rest := by
  induction l generalizing str with
  | nil => exact ⟨[], by simp [digitLoop]⟩
  | cons c r ih =>
    unfold digitLoop
    split_ifs
    · obtain ⟨d, h1, h2⟩ := ih (str ++ [c])
      exact ⟨c :: d, by rw [h1]; simp, by rw [List.cons_append, ← h2]⟩
    · exact ⟨[], by simp⟩

/-- reading a number takes white space and the digits, and nothing behind a failure -/
theorem feRead_inv {s t : Stream} {x : Fe} (h : Fe.read s = .ok (x, t)) (hs : s.fail = false) :
    ∃ ws d, Blank ws ∧ Fe.setStr d = .ok x ∧ s.rest = ws ++ (d ++ t.rest) := by
  unfold Fe.read at h
  dsimp only at h
  rcases e : Fe.setStr (getDigits s).1 with y | _ | _ | _ | _ <;> rw [e] at h <;> cases h
  obtain ⟨d, h1, h2⟩ := digitLoop_inv false (s.rest.dropWhile isSpace) []
  have eg : getDigits s = digitLoop false (s.rest.dropWhile isSpace) [] := by unfold getDigits; rw [hs]; rfl
  refine ⟨s.rest.takeWhile isSpace, d, blank_takeWhile _, ?_, ?_⟩
  · rw [eg, h1] at e; exact e
  · rw [eg, ← h2, List.takeWhile_append_dropWhile]

theorem wants_inv {c : Option Char} {d : Char} {l : List (Option Char × Char)} (h : wants ((c, d) :: l) = .ok ()) :
    c = some d ∧ wants l = .ok () := by
  rcases c with _ | c
  · cases h
  · have h' : (if (c == d) = true then wants l else .throw) = .ok () := h
    split_ifs at h' with hc
    exact ⟨by rw [eq_of_beq hc], h'⟩

/-- C55: a text is accepted only in the form `[a,b]` with white space before the brackets, the comma and the numbers, and the
components are the values of the two numerals. -/
theorem C55_accept {s t : Stream} {x : F2} (h : F2.read s = .ok (x, t)) :
    s.fail = false ∧ ∃ w1 w2 w3 w4 w5 a b, (∀ w ∈ [w1, w2, w3, w4, w5], Blank w) ∧ Fe.setStr a = .ok x.a ∧ Fe.setStr b = .ok x.b ∧
      s.rest = w1 ++ '[' :: (w2 ++ (a ++ (w3 ++ ',' :: (w4 ++ (b ++ (w5 ++ ']' :: t.rest)))))) := by
  unfold F2.read at h
  obtain ⟨cl, s1, e1⟩ : ∃ c u, s.getChar = (c, u) := ⟨_, _, rfl⟩
  rw [e1] at h
  dsimp only at h
  rcases e2 : Fe.read s1 with ⟨a, s2⟩ | _ | _ | _ | _ <;> rw [e2] at h <;> try cases h
  obtain ⟨cm, s3, e3⟩ : ∃ c u, s2.getChar = (c, u) := ⟨_, _, rfl⟩
  simp only [Res.bind_ok, e3] at h
  rcases e4 : Fe.read s3 with ⟨b, s4⟩ | _ | _ | _ | _ <;> rw [e4] at h <;> try cases h
  obtain ⟨cr, s5, e5⟩ : ∃ c u, s4.getChar = (c, u) := ⟨_, _, rfl⟩
  simp only [Res.bind_ok, e5] at h
  rcases e6 : wants [(cl, '['), (cm, ','), (cr, ']')] with _ | _ | _ | _ | _ <;> rw [e6] at h <;> cases h
  obtain ⟨rfl, e7⟩ := wants_inv e6
  obtain ⟨rfl, e8⟩ := wants_inv e7
  obtain ⟨rfl, -⟩ := wants_inv e8
  obtain ⟨f1, w1, b1, r1⟩ := getChar_inv e1
  obtain ⟨f2, w3, b3, r3⟩ := getChar_inv e3
  obtain ⟨f3, w5, b5, r5⟩ := getChar_inv e5
  have g1 : s1.fail = false := getChar_ok e1
  have g3 : s3.fail = false := getChar_ok e3
  obtain ⟨w2, a', b2, ha, r2⟩ := feRead_inv e2 g1
  obtain ⟨w4, b', b4, hb, r4⟩ := feRead_inv e4 g3
  refine ⟨f1, w1, w2, w3, w4, w5, a', b', ?_, ha, hb, ?_⟩
  · simp [b1, b2, b3, b4, b5]
  · rw [r1, r2, r3, r4, r5]

example : ∃ s t x, F2.read s = .ok (x, t) ∧ s.rest.length = 12 ∧ t.rest.length = 2 :=
  ⟨⟨" [ 3 , 2 ]xy".toList, false⟩, ⟨"xy".toList, false⟩, ⟨feOf 3, feOf 2⟩, by decide +kernel⟩

/-- C55: a text with other brackets is rejected. -/
theorem C55_reject : F2.setStr "(3,2)".toList = .throw ∧ F2.setStr "[3;2]".toList = .throw := by decide +kernel

/-! ### C41 -/

/-- the text after a word begins with white space -/
def Ends (rest : List Char) : Prop := ∀ c r, rest = c :: r → c ∈ [' ', '\t', '\n', '\x0b', '\x0c', '\r']

theorem Ends.wordEnd {rest : List Char} (h : Ends rest) : WordEnd rest := by
  intro c r e
  exact Blank.space (ws := [c]) (by intro d hd; rw [List.mem_singleton] at hd; subst hd; exact h _ r e) c (by simp)

open Ec

section
variable {K : Type} [Field K] [DecidableEq K] [FF K] [LawfulFF K] [TextF K]

theorem ec_round (hK : TextOk K) {b : K} {P : J K} {A : (curve b).Point} (hP : Rep b P A) :
    ∃ s, toStr P = .ok s ∧ ∃ Q : J K, Rep b Q A ∧ (Q.z = 1 ∨ Q = ⟨0, 0, 0⟩) ∧
    ∀ ws rest, Blank ws → Ends rest → Ec.read ⟨ws ++ (s ++ rest), false⟩ = .ok (Q, ⟨rest, false⟩) := by
  obtain ⟨s, h1, h2⟩ := read_toStr hK P
  refine ⟨s, h1, _, ?_, ?_, fun ws rest hw hr => h2 ws rest hw.space hr.wordEnd⟩
  · by_cases hi : isInf P = true
    · rw [if_pos hi]
      have hz : P.z = 0 := (LawfulFF.isZero_iff _).1 hi
      rcases hP with ⟨-, rfl⟩ | ⟨h, -⟩
      · exact .inl ⟨rfl, rfl⟩
      · exact absurd hz h
    · rw [if_neg hi]
      obtain ⟨r, hr⟩ := normalize_spec hP
      have hz : P.z ≠ 0 := fun h => hi ((LawfulFF.isZero_iff _).2 h)
      rcases hr with hr | hr
      · rw [← hr]; exact r
      · exfalso
        rcases hP with ⟨h, -⟩ | ⟨-, hn, rfl⟩
        · exact hz h
        · rcases r with ⟨-, h⟩ | ⟨h, -⟩
          · exact absurd h (by simp)
          · exact h hr
  · by_cases hi : isInf P = true
    · rw [if_pos hi]; exact .inr rfl
    · rw [if_neg hi]; exact .inl rfl

theorem ec_canonical {b : K} {P Q : J K} {A : (curve b).Point} (hP : Rep b P A) (hQ : Rep b Q A) : toStr P = toStr Q := by
  have h := (eq_spec hP hQ).2 rfl
  have hinf : ∀ R : J K, isInf (normalize R) = isInf R := by
    intro R
    unfold Ec.normalize
    by_cases hR : isInf R = true
    · rw [hR, Bool.true_or, if_pos rfl, hR]
    · rw [Bool.not_eq_true] at hR
      rw [hR, Bool.false_or]
      split_ifs with h
      · exact hR
      · exact isZero_false.2 one_ne_zero
  unfold eq at h
  dsimp only at h
  rw [hinf, hinf] at h
  unfold toStr
  dsimp only
  by_cases h1 : isInf P = true <;> by_cases h2 : isInf Q = true
  · rw [if_pos h1, if_pos h2]
  · rw [if_pos h1, if_neg h2] at h; simp at h
  · rw [if_neg h1, if_pos h2] at h; simp at h
  · rw [if_neg h1, if_neg h2, Bool.and_eq_true, LawfulFF.eqb_iff, LawfulFF.eqb_iff] at h
    rw [if_neg h1, if_neg h2, h.1, h.2]

end

/-- C41: a valid point of either group written to a stream and read back is valid, equal to the original and normalised. -/
theorem C41_round {P : J Fe} (hP : isValid1 P = true) {Q : J F2} (hQ : isValid2 Q = true) :
    (∃ s, toStr P = .ok s ∧ ∃ P', eq P P' = true ∧ isValid1 P' = true ∧ (P'.z = 1 ∨ P' = ⟨0, 0, 0⟩) ∧
      ∀ ws rest, Blank ws → Ends rest → Ec.read ⟨ws ++ (s ++ rest), false⟩ = .ok (P', ⟨rest, false⟩)) ∧
    (∃ s, toStr Q = .ok s ∧ ∃ Q', eq Q Q' = true ∧ isValid2 Q' = true ∧ (Q'.z = 1 ∨ Q' = ⟨0, 0, 0⟩) ∧
      ∀ ws rest, Blank ws → Ends rest → Ec.read ⟨ws ++ (s ++ rest), false⟩ = .ok (Q', ⟨rest, false⟩)) := by
  obtain ⟨A, hA⟩ := ((isValid1_iff P).1 hP).rep good1
  obtain ⟨B, hB⟩ := ((isValid2_iff Q).1 hQ).rep good2
  obtain ⟨s, s1, P', s2, s3, s4⟩ := ec_round textOk_fe hA
  obtain ⟨t, t1, Q', t2, t3, t4⟩ := ec_round textOk_f2 hB
  refine ⟨⟨s, s1, P', (eq_spec hA s2).2 rfl, ?_, s3, s4⟩, ⟨t, t1, Q', (eq_spec hB t2).2 rfl, ?_, t3, t4⟩⟩
  · exact (isValid1_iff P').2 (s2.valid good1)
  · exact (isValid2_iff Q').2 (t2.valid good2)

/-- C41: the text depends only on the point: equal triples are written alike. -/
theorem C41_canonical {P P' : J Fe} (hP : isValid1 P = true) (hP' : isValid1 P' = true) (h : eq P P' = true)
    {Q Q' : J F2} (hQ : isValid2 Q = true) (hQ' : isValid2 Q' = true) (h' : eq Q Q' = true) :
    toStr P = toStr P' ∧ toStr Q = toStr Q' := by
  obtain ⟨A, hA⟩ := ((isValid1_iff P).1 hP).rep good1
  obtain ⟨A', hA'⟩ := ((isValid1_iff P').1 hP').rep good1
  obtain ⟨B, hB⟩ := ((isValid2_iff Q).1 hQ).rep good2
  obtain ⟨B', hB'⟩ := ((isValid2_iff Q').1 hQ').rep good2
  obtain rfl := (eq_spec hA hA').1 h
  obtain rfl := (eq_spec hB hB').1 h'
  exact ⟨ec_canonical hA hA', ec_canonical hB hB'⟩

example : toStr g1 = .ok "0x2523648240000001ba344d80000000086121000000000013a700000000000012_0x1".toList ∧
    isInf (dbl g1) = false ∧ toStr (⟨5, 6, 0⟩ : J Fe) = .ok ['0'] ∧
    Ec.read ⟨"0x2523648240000001ba344d80000000086121000000000013a700000000000012_0x1 7".toList, false⟩ = .ok (g1, ⟨" 7".toList, false⟩) := by
  decide +kernel

/-- C41: the reader does not check the equation of the curve: the text 0x1_0x1 is accepted although (1, 1) is not on it. -/
theorem C41_unchecked : ∃ P : J Fe, Ec.read ⟨"0x1_0x1".toList, false⟩ = .ok (P, ⟨[], false⟩) ∧ isValid1 P = false :=
  ⟨⟨1, 1, 1⟩, by decide +kernel⟩

end Verif
