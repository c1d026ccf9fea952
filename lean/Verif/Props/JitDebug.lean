import Verif.Jit.Debug

/-! Property theorems C83: the debugging aid `debug_save_buf` of the code generator. -/

namespace Verif
namespace Jit

open Reg

/-- **C83** `debug_save_buf(m, n)` inserted anywhere in generated code, for every state, operand and n ≤ 128: the n words are copied to
`debug_buf`; nothing else is written but `save` and the word below the stack; flags, xmm registers and all general registers are
as before except rbx, which is the third word of the operand instead of its old value. -/
theorem C83_copy {s : St} {a : Addr} {n S V D A : ℕ} (h : SaveCall s a n S V D A) :
    ∃ t, exec (saveBuf (8 * V) (8 * D) a n) s = .ok t ∧ (∀ i, i < n → t.m (D + i) = s.m (A + i)) ∧
    (∀ w, (w < D ∨ D + n ≤ w) → (w < V ∨ V + 3 ≤ w) → w ≠ S → t.m w = s.m w) ∧
    (∀ q, q ≠ rbx → t.r q = s.r q) ∧ t.r rbx = s.m (A + 2) ∧ t.x = s.x ∧ t.cf = s.cf ∧ t.zf = s.zf := by
  obtain ⟨t, h1, h2, h3, h4, h5, h6, h7⟩ := saveBuf_ok h
  refine ⟨t, h1, h6, h7, fun q hq => ?_, ?_, h3, h4, h5⟩
  · rw [h2, Function.update_of_ne hq]
  · rw [h2, Function.update_self]

/-- **C83** so the inserted code leaves the registers alone exactly when rbx was equal to the third word of the operand. -/
theorem C83_transparent_iff {s t : St} {a : Addr} {n S V D A : ℕ} (h : SaveCall s a n S V D A)
    (ht : exec (saveBuf (8 * V) (8 * D) a n) s = .ok t) : t.r = s.r ↔ s.r rbx = s.m (A + 2) := by
  obtain ⟨t', h1, -, -, h4, h5, -⟩ := C83_copy h
  rw [h1] at ht
  obtain rfl := Res.ok.inj ht
  constructor
  · intro e; rw [← e, h5]
  · intro e
    funext q
    by_cases hq : q = rbx
    · rw [hq, h5, e]
    · exact h4 q hq

/-- rsp = 800, rdi = 80, rbx = 7, each other register 5; memory word w holds w -/
def demoSave : St := ⟨fun q => if q = rsp then 800 else if q = rdi then 80 else if q = rbx then 7 else 5, fun _ => 0, some 1, some false, id⟩

theorem demoSave_call : SaveCall demoSave (pt rdi 0) 4 99 200 300 10 where
  sp := rfl
  hS := by decide
  hV := by decide
  hn := by decide
  hD := by decide
  hA := ⟨rfl, by decide⟩
  av := by decide
  sv := by decide
  sd := by decide
  sa := by decide
  vd := by decide
  va := by decide
  da := by decide

/-- **C83** the registers are not restored: rbx = 7 before, 12 after. -/
theorem C83_rbx_wrong : ∃ t, exec (saveBuf 1600 2400 (pt rdi 0) 4) demoSave = .ok t ∧ demoSave.r rbx = 7 ∧ t.r rbx = 12 ∧ t.m 303 = 13 := by
  obtain ⟨t, h1, h2, -, -, h5, -⟩ := C83_copy demoSave_call
  exact ⟨t, h1, rfl, h5, h2 3 (by decide)⟩

example : ∃ s : St, SaveCall s (pt rdi 0) 4 99 200 300 10 := ⟨_, demoSave_call⟩

end Jit
end Verif
