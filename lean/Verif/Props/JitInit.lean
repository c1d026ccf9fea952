import Verif.Jit.Api
import Verif.Props.Init

/-! The tables that C57-C64 assume in memory are those that `Fp::setModulo` stores. -/

namespace Verif.Jit
open Fp Init

/-- the n words of a number, least significant first -/
def wordsOf (n x : ℕ) : List ℕ := (List.range n).map fun i => x / 2 ^ (64 * i) % 2 ^ 64

/-- `struct Data` (zm2.cpp:48-53) after zm2.cpp:3656-3675: ten and two and four `Fp`, then four `FpDbl` -/
def dataWords (c : Consts) : List ℕ :=
  c.pTbl.flatMap (wordsOf 4) ++ c.halfTbl.flatMap (wordsOf 4) ++ c.quarterTbl.flatMap (wordsOf 4) ++ c.pNTbl.flatMap (wordsOf 8)

/-- the generator's view of the same object at word D (zm2.cpp:3648, 3656-3659): `s_pTbl`, `halfTbl_`, `pNTbl_` -/
def dataCfg (interleaveLoad useMulx : Bool) (D : ℕ) : Cfg := ⟨interleaveLoad, useMulx, D, D + 40, D + 64⟩

theorem num_congr_shift {m f : ℕ → ℕ} {a : ℕ} : ∀ (n b : ℕ), (∀ j, j < n → m (a + j) = f (b + j)) → num m a n = num f b n
  | 0, _, _ => rfl
  | n + 1, b, h => by
    have h0 := h 0 (by omega)
    unfold num
    rw [num_congr_shift (a := a + 1) n (b + 1) fun j hj => by
      have := h (j + 1) (by omega)
      rwa [show a + 1 + j = a + (j + 1) by omega, show b + 1 + j = b + (j + 1) by omega]]
    rw [Nat.add_zero, Nat.add_zero] at h0
    rw [h0]

/-- **C57** (hypothesis of C57-C64) once `setModulo` has stored its `Data` object at word D, the tables the generated code
reads are in memory, wherever D is. -/
theorem C57_tables {c : Consts} (hc : setModulo none pV = .ok c) {m : ℕ → ℕ} {D : ℕ}
    (hm : ∀ i, i < 96 → m (D + i) = (dataWords c).getD i 0) (il mx : Bool) : Tables (dataCfg il mx D) m := by
  rw [setModulo_run] at hc
  obtain rfl := Res.ok.inj hc
  generalize hd : dataWords _ = d at hm
  have key : ∀ a n, a + n ≤ 96 → num m (D + a) n = num (fun i => d.getD i 0) a n := fun a n h =>
    num_congr_shift n a fun j hj => by rw [Nat.add_assoc]; exact hm (a + j) (by omega)
  refine ⟨fun i hi => ?_, ?_, ?_, ?_⟩
  · rw [show (dataCfg il mx D).pT = D from rfl, key _ _ (by omega), ← hd]
    revert i
    decide +kernel
  · rw [show (dataCfg il mx D).hT = D + 40 from rfl, key _ _ (by omega), ← hd]
    decide +kernel
  · rw [show (dataCfg il mx D).hT + 4 = D + 44 from rfl, key _ _ (by omega), ← hd]
    decide +kernel
  · rw [show (dataCfg il mx D).nT + 16 = D + 80 from rfl, key _ _ (by omega), ← hd]
    decide +kernel

/-- the object fills 96 words, entry 3 of `s_pTbl` is 3p -/
example : ∃ c, setModulo none pV = .ok c ∧ (dataWords c).length = 96 ∧ num (fun i => (dataWords c).getD i 0) 12 4 = 3 * p :=
  ⟨_, setModulo_run, by decide +kernel, by decide +kernel⟩

end Verif.Jit
