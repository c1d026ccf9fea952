import Verif.Text.Round
import Verif.Ec.Model
import Verif.Fp.Lemmas

/-! Text form of field elements and points (zm2.h:67-70, 116-126, 250; bn.h:521-549, 970-980, 1421-1431, 2915-2941). -/

namespace Verif

open Text

/-- `Fp::set(const Vuint&)` as an object of the field type; the value is always below p (`Fe.setV_ok`) -/
def Fe.setV (x : List ℕ) : Res Fe := do
  let v ← Fp.set x
  if h : v < Fp.p then .ok ⟨v, h⟩ else .ub

/-- `Fp::set(const std::string&)` (zm2.h:67-70) -/
def Fe.setStr (s : List Char) : Res Fe := do
  let v ← Text.set s
  Fe.setV v

/-- `Fp::toString` (zm2.h:250) -/
def Fe.toStr (base : ℕ) (x : Fe) : Res (List Char) := do
  let v ← Fp.get x.n
  Text.toString v base

/-- `operator>>(std::istream&, Fp&)` (zm2.h:120-126) -/
def Fe.read (s : Stream) : Res (Fe × Stream) := do
  let r := getDigits s
  let x ← Fe.setStr r.1
  pure (x, r.2)

/-- a character variable compared with an expected one; reading it uninitialised is undefined -/
def want (c : Option Char) (d : Char) : Res Bool :=
  match c with
  | none => .ub
  | some x => .ok (x == d)

/-- the conjunction of such comparisons, left to right; an exception is thrown when one fails -/
def wants : List (Option Char × Char) → Res Unit
  | [] => .ok ()
  | c :: cs => do
    let b ← want c.1 c.2
    if b then wants cs else .throw

/-- `Fp2T::toString` (bn.h:521-524) -/
def F2.toStr (base : ℕ) (x : F2) : Res (List Char) := do
  let a ← Fe.toStr base x.a
  let b ← Fe.toStr base x.b
  pure (['['] ++ a ++ [','] ++ b ++ [']'])

/-- `operator>>(std::istream&, Fp2T&)` (bn.h:529-535) -/
def F2.read (s : Stream) : Res (F2 × Stream) := do
  let cl := s.getChar
  let a ← Fe.read cl.2
  let cm := a.2.getChar
  let b ← Fe.read cm.2
  let cr := b.2.getChar
  wants [(cl.1, '['), (cm.1, ','), (cr.1, ']')]
  pure (⟨a.1, b.1⟩, cr.2)

/-- `Fp2T::set(const std::string&)` (bn.h:543-547) -/
def F2.setStr (s : List Char) : Res F2 := do
  let r ← F2.read ⟨s, false⟩
  pure r.1

/-- `operator<<(std::ostream&, const Fp6T&)` (bn.h:970-973); base 16 when the stream has the flag `hex` -/
def F6.toStr (base : ℕ) (x : F6) : Res (List Char) := do
  let a ← F2.toStr base x.a
  let b ← F2.toStr base x.b
  let c ← F2.toStr base x.c
  pure (['['] ++ a ++ [',', '\n', ' '] ++ b ++ [',', '\n', ' '] ++ c ++ [']'])

/-- `operator>>(std::istream&, Fp6T&)` (bn.h:974-980) -/
def F6.read (s : Stream) : Res (F6 × Stream) := do
  let c1 := s.getChar
  let a ← F2.read c1.2
  let c2 := a.2.getChar
  let b ← F2.read c2.2
  let c3 := b.2.getChar
  let c ← F2.read c3.2
  let c4 := c.2.getChar
  wants [(c1.1, '['), (c2.1, ','), (c3.1, ','), (c4.1, ']')]
  pure (⟨a.1, b.1, c.1⟩, c4.2)

/-- `operator<<(std::ostream&, const Fp12T&)` (bn.h:1421-1424) -/
def F12.toStr (base : ℕ) (x : F12) : Res (List Char) := do
  let a ← F6.toStr base x.a
  let b ← F6.toStr base x.b
  pure (['['] ++ a ++ [',', '\n', ' '] ++ b ++ [']'])

/-- `operator>>(std::istream&, Fp12T&)` (bn.h:1425-1431) -/
def F12.read (s : Stream) : Res (F12 × Stream) := do
  let c1 := s.getChar
  let a ← F6.read c1.2
  let c2 := a.2.getChar
  let b ← F6.read c2.2
  let c3 := b.2.getChar
  wants [(c1.1, '['), (c2.1, ','), (c3.1, ']')]
  pure (⟨a.1, b.1⟩, c3.2)

/-- text routines of a coordinate field -/
class TextF (K : Type) where
  toStr16 : K → Res (List Char)
  setStr : List Char → Res K

instance : TextF Fe := ⟨Fe.toStr 16, Fe.setStr⟩
instance : TextF F2 := ⟨F2.toStr 16, F2.setStr⟩

/-- `is >> str` for a string: a word without white space -/
def Text.Stream.getWord (s : Stream) : List Char × Stream :=
  if s.fail then ([], s)
  else
    let t := s.rest.dropWhile isSpace
    let w := t.takeWhile (fun c => !isSpace c)
    (w, ⟨t.drop w.length, w.isEmpty⟩)

namespace Ec

variable {K : Type} [Add K] [Sub K] [Mul K] [Neg K] [Inv K] [Zero K] [One K] [FF K] [TextF K]

/-- `operator<<(std::ostream&, const EcT&)` (bn.h:2915-2923) -/
def toStr (P : J K) : Res (List Char) :=
  if isInf P then .ok ['0']
  else
    let P := normalize P
    do
      let x ← TextF.toStr16 P.x
      let y ← TextF.toStr16 P.y
      pure (x ++ ['_'] ++ y)

/-- C string at a position of a buffer -/
def cstr (l : List Char) : List Char := l.takeWhile (· ≠ '\x00')

/-- `operator>>(std::istream&, EcT&)` (bn.h:2924-2941) -/
def read (s : Stream) : Res (J K × Stream) := do
  let r := s.getWord
  if r.1 = ['0'] then .ok (clear, r.2)
  else if '_' ∉ r.1 then .throw
  else
    let pos := r.1.idxOf '_'
    let x ← TextF.setStr (cstr (r.1.take pos))
    let y ← TextF.setStr (cstr (r.1.drop (pos + 1)))
    pure (⟨x, y, 1⟩, r.2)

end Ec

/-! ### lemmas -/

theorem Fe.setV_ok {z : List ℕ} (hz : WF z) (hl : z.length ≤ 5) :
    ∃ y : Fe, Fe.setV z = .ok y ∧ Fp.residue y.n = (val z : ZMod Fp.p) := by
  obtain ⟨y, e, hy, hr⟩ := Fp.set_spec hz hl
  refine ⟨⟨y, hy⟩, ?_, hr⟩
  unfold Fe.setV
  rw [e, Res.bind_ok, dif_pos hy]

end Verif
