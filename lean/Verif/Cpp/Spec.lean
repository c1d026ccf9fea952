import Verif.Cpp.Lang

/-! From runs on names to statements about all references (see Lang.lean). -/

namespace Verif.Cpp
open Jit (r2 r6 r12 l2 l6 l12)

section
open Lean Elab Tactic Meta

/-- An equation that holds by `rfl` whatever the routines called are: unfold the given definitions, replace the remaining
constants of `Fp`, `Fp2`, `Fp6`, `Fp12` by variables and leave the equation to the kernel as a lemma. -/
elab "crun" "[" ids:ident,* "]" : tactic => do
  let goal ← getMainGoal
  let names ← ids.getElems.mapM fun i => realizeGlobalConstNoOverload i
  goal.withContext do
    let t ← instantiateMVars (← goal.getType)
    let t ← deltaExpand t fun n => names.contains n
    let pre := [`Verif.Fp, `Verif.Fp2, `Verif.Fp6, `Verif.Fp12]
    let cs := t.getUsedConstants.filter fun n => pre.contains n.getPrefix
    let tys ← cs.mapM fun c => do return (← getConstInfo c).type
    let decls := (cs.zip tys).map fun (c, ty) => (c.getString!.toName, fun (_ : Array Expr) => pure (f := TacticM) ty)
    let (lty, lpf) ← withLocalDeclsD decls fun fs => do
      let t' := t.replace fun e => match e with
        | .const n _ => (cs.findIdx? (· == n)).map fun i => fs[i]!
        | _ => none
      let (pf : Expr) ← forallTelescope t' fun xs b => do
        let some (ty, a, _) := b.eq? | throwError "crun: not an equation"
        let u ← getLevel ty
        mkLambdaFVars xs (mkApp2 (mkConst ``Eq.refl [u]) ty a)
      return (← mkForallFVars fs t', ← mkLambdaFVars fs pf)
    let lem ← mkAuxLemma [] lty lpf
    goal.assign (mkAppN (mkConst lem) (cs.map fun c => mkConst c))

end

/-- how an object of a class is stored in cells -/
structure ObjV (V α : Type) where
  n : ℕ
  enc : α → List V
  get : MemV V → Loc → α
  len : ∀ a, (enc a).length = n
  rd_eq : ∀ m l, rd m l n = enc (get m l)
abbrev Obj := ObjV ℕ

/-- the `Fp2` at l -/
def MemV.r2 (m : MemV ℕ) (l : Loc) : R2 := ⟨m l, m (l.plus 1)⟩
/-- the `Fp6` at l -/
def MemV.r6 (m : MemV ℕ) (l : Loc) : R6 := ⟨MemV.r2 m l, MemV.r2 m (l.plus 2), MemV.r2 m (l.plus 4)⟩
/-- the `Fp12` at l -/
def MemV.r12 (m : MemV ℕ) (l : Loc) : R12 := ⟨MemV.r6 m l, MemV.r6 m (l.plus 6)⟩

/-- `Fp` -/
def o1 : Obj ℕ := ⟨1, fun a => [a], fun m l => m l, fun _ => rfl, fun _ _ => rfl⟩
/-- `Fp2` -/
def o2 : Obj R2 := ⟨2, l2, MemV.r2, fun _ => rfl, fun _ _ => rfl⟩
/-- `Fp6` -/
def o6 : Obj R6 := ⟨6, l6, MemV.r6, fun _ => rfl, fun _ _ => rfl⟩
/-- `Fp12` -/
def o12 : Obj R12 := ⟨12, l12, MemV.r12, fun _ => rfl, fun _ _ => rfl⟩

def nm (k : ℕ) : Loc := ⟨k, 0⟩
abbrev ren {V : Type} (P : List Loc) (p : List (StmtV V)) : List (StmtV V) := p.map (StmtV.map (plc P))

theorem Same.cases {z x : Loc} {n : ℕ} (h : Same z x n) : x = z ∨ Apart z n x n := h
theorem Apart.symm {x y : Loc} {n k : ℕ} (h : Apart x n y k) : Apart y k x n := by
  unfold Apart at *; rcases h with h | h | h
  · exact Or.inl h.symm
  · exact Or.inr (Or.inr h)
  · exact Or.inr (Or.inl h)

theorem args1 {z : Loc} {n : ℕ} (hz : Ext z) : Args [n] [0] [z] where
  len := rfl
  ext k hk := by
    have : k = 0 := by simpa using hk
    subst this; exact hz
  dis a ha _ b hb hab := by simp at ha hb; omega

theorem args2 {z x : Loc} {n k : ℕ} (hz : Ext z) (hx : Ext x) (h : Apart z n x k) : Args [n, k] [0] [z, x] where
  len := rfl
  ext j hj := by
    have : j = 0 ∨ j = 1 := by simp at hj; omega
    rcases this with rfl | rfl
    · exact hz
    · exact hx
  dis a ha hw b hb hab := by
    have : a = 0 := by simpa using hw
    subst this
    have : b = 1 := by simp at hb; omega
    subst this
    exact h

/-- both objects written -/
theorem args2w {z x : Loc} {n k : ℕ} (hz : Ext z) (hx : Ext x) (h : Apart z n x k) : Args [n, k] [0, 1] [z, x] where
  len := rfl
  ext j hj := by
    have : j = 0 ∨ j = 1 := by simp at hj; omega
    rcases this with rfl | rfl
    · exact hz
    · exact hx
  dis a ha _ b hb hab := by
    have : (a = 0 ∧ b = 1) ∨ (a = 1 ∧ b = 0) := by simp at ha hb; omega
    rcases this with ⟨rfl, rfl⟩ | ⟨rfl, rfl⟩
    · exact h
    · exact h.symm

theorem args3 {z x y : Loc} {n k j : ℕ} (hz : Ext z) (hx : Ext x) (hy : Ext y) (h : Apart z n x k) (h' : Apart z n y j) :
    Args [n, k, j] [0] [z, x, y] where
  len := rfl
  ext i hi := by
    have : i = 0 ∨ i = 1 ∨ i = 2 := by simp at hi; omega
    rcases this with rfl | rfl | rfl
    · exact hz
    · exact hx
    · exact hy
  dis a ha hw b hb hab := by
    have : a = 0 := by simpa using hw
    subst this
    have : b = 1 ∨ b = 2 := by simp at hb; omega
    rcases this with rfl | rfl
    · exact h
    · exact h'

/-- the first two written -/
theorem args3w {z x y : Loc} {n k j : ℕ} (hz : Ext z) (hx : Ext x) (hy : Ext y) (h : Apart z n x k) (h' : Apart z n y j)
    (h'' : Apart x k y j) : Args [n, k, j] [0, 1] [z, x, y] where
  len := rfl
  ext i hi := by
    have : i = 0 ∨ i = 1 ∨ i = 2 := by simp at hi; omega
    rcases this with rfl | rfl | rfl
    · exact hz
    · exact hx
    · exact hy
  dis a ha hw b hb hab := by
    have hw : a = 0 ∨ a = 1 := by simpa using hw
    have hb : b = 0 ∨ b = 1 ∨ b = 2 := by simp at hb; omega
    rcases hw with rfl | rfl <;> rcases hb with rfl | rfl | rfl
    · exact absurd rfl hab
    · exact h
    · exact h'
    · exact h.symm
    · exact absurd rfl hab
    · exact h''

/-- the first two of four written -/
theorem args4w {z x y w : Loc} {n k j i : ℕ} (hz : Ext z) (hx : Ext x) (hy : Ext y) (hw : Ext w) (h1 : Apart z n x k)
    (h2 : Apart z n y j) (h3 : Apart z n w i) (h4 : Apart x k y j) (h5 : Apart x k w i) :
    Args [n, k, j, i] [0, 1] [z, x, y, w] where
  len := rfl
  ext l hl := by
    have : l = 0 ∨ l = 1 ∨ l = 2 ∨ l = 3 := by simp at hl; omega
    rcases this with rfl | rfl | rfl | rfl
    · exact hz
    · exact hx
    · exact hy
    · exact hw
  dis a ha hw b hb hab := by
    have hw : a = 0 ∨ a = 1 := by simpa using hw
    have hb : b = 0 ∨ b = 1 ∨ b = 2 ∨ b = 3 := by simp at hb; omega
    rcases hw with rfl | rfl <;> rcases hb with rfl | rfl | rfl | rfl
    · exact absurd rfl hab
    · exact h1
    · exact h2
    · exact h3
    · exact h1.symm
    · exact absurd rfl hab
    · exact h4
    · exact h5

section
variable {V : Type} [Inhabited V] {α β γ δ : Type} (A : ObjV V α) (B : ObjV V β) (C : ObjV V γ) (D : ObjV V δ)

/-- the run on names of a routine with one written object -/
theorem res {lens : List ℕ} {P : List Loc} {p : List (StmtV V)} (hP : Args lens [0] P) (h : ok lens [0] p = true)
    (hl : 0 < lens.length) (m : MemV V) {vs : List (List V)} {v : List V}
    (hv : ∀ k, k < lens.length → vs.getD k [] = rd m (P.getD k ⟨0, 0⟩) (lens.getD k 0))
    (hn : v.length = lens.getD 0 0)
    (hr : rd (exec p (seen (fun i => m ⟨0, i⟩) vs)) (nm 1) v.length = v) :
    Result m (exec (ren P p) m) (P.getD 0 ⟨0, 0⟩) v := by
  obtain ⟨h1, h2⟩ := run hP h m hv
  refine ⟨?_, fun l he hi => h2 l he fun a ha => ?_⟩
  · rw [hn, h1 0 hl, ← hn]; exact hr
  · have : a = 0 := by simpa using ha
    subst this; rw [← hn]; exact hi

theorem mk1 {f : α → α} {prog : Loc → List (StmtV V)}
    (n1 : ∀ z, prog z = ren [z] (prog (nm 1)))
    (k1 : ok [A.n] [0] (prog (nm 1)) = true)
    (r1 : ∀ loc Z, rd (exec (prog (nm 1)) (seen loc [A.enc Z])) (nm 1) A.n = A.enc (f Z)) :
    ∀ m z, Ext z → Result m (exec (prog z) m) z (A.enc (f (A.get m z))) := by
  intro m z hz
  rw [n1 z]
  refine res (args1 hz) k1 (by simp) m (vs := [A.enc (A.get m z)]) (fun k hk => ?_) (A.len _) ?_
  · have : k = 0 := by simpa using hk
    subst this
    exact (A.rd_eq m z).symm
  · rw [A.len]; exact r1 _ _

theorem mk2 {f : β → α} {prog : Loc → Loc → List (StmtV V)}
    (n1 : ∀ z x, prog z x = ren [z, x] (prog (nm 1) (nm 2)))
    (k1 : ok [A.n, B.n] [0] (prog (nm 1) (nm 2)) = true)
    (r1 : ∀ loc Z X, rd (exec (prog (nm 1) (nm 2)) (seen loc [A.enc Z, B.enc X])) (nm 1) A.n = A.enc (f X)) :
    ∀ m z x, Ext z → Ext x → Apart z A.n x B.n → Result m (exec (prog z x) m) z (A.enc (f (B.get m x))) := by
  intro m z x hz hx h
  rw [n1 z]
  refine res (args2 hz hx h) k1 (by simp) m (vs := [A.enc (A.get m z), B.enc (B.get m x)]) (fun k hk => ?_) (A.len _) ?_
  · have : k = 0 ∨ k = 1 := by simp at hk; omega
    rcases this with rfl | rfl
    · exact (A.rd_eq m z).symm
    · exact (B.rd_eq m x).symm
  · rw [A.len]; exact r1 _ _ _

/-- the written object is read too -/
theorem mk2i {f : α → β → α} {prog : Loc → Loc → List (StmtV V)}
    (n1 : ∀ z x, prog z x = ren [z, x] (prog (nm 1) (nm 2)))
    (k1 : ok [A.n, B.n] [0] (prog (nm 1) (nm 2)) = true)
    (r1 : ∀ loc Z X, rd (exec (prog (nm 1) (nm 2)) (seen loc [A.enc Z, B.enc X])) (nm 1) A.n = A.enc (f Z X)) :
    ∀ m z x, Ext z → Ext x → Apart z A.n x B.n →
      Result m (exec (prog z x) m) z (A.enc (f (A.get m z) (B.get m x))) := by
  intro m z x hz hx h
  rw [n1 z]
  refine res (args2 hz hx h) k1 (by simp) m (vs := [A.enc (A.get m z), B.enc (B.get m x)]) (fun k hk => ?_) (A.len _) ?_
  · have : k = 0 ∨ k = 1 := by simp at hk; omega
    rcases this with rfl | rfl
    · exact (A.rd_eq m z).symm
    · exact (B.rd_eq m x).symm
  · rw [A.len]; exact r1 _ _ _

theorem mk3 {f : β → γ → α} {prog : Loc → Loc → Loc → List (StmtV V)}
    (n1 : ∀ z x y, prog z x y = ren [z, x, y] (prog (nm 1) (nm 2) (nm 3)))
    (k1 : ok [A.n, B.n, C.n] [0] (prog (nm 1) (nm 2) (nm 3)) = true)
    (r1 : ∀ loc Z X Y, rd (exec (prog (nm 1) (nm 2) (nm 3)) (seen loc [A.enc Z, B.enc X, C.enc Y])) (nm 1) A.n = A.enc (f X Y)) :
    ∀ m z x y, Ext z → Ext x → Ext y → Apart z A.n x B.n → Apart z A.n y C.n →
      Result m (exec (prog z x y) m) z (A.enc (f (B.get m x) (C.get m y))) := by
  intro m z x y hz hx hy h h'
  rw [n1 z]
  refine res (args3 hz hx hy h h') k1 (by simp) m (vs := [A.enc (A.get m z), B.enc (B.get m x), C.enc (C.get m y)])
    (fun k hk => ?_) (A.len _) ?_
  · have : k = 0 ∨ k = 1 ∨ k = 2 := by simp at hk; omega
    rcases this with rfl | rfl | rfl
    · exact (A.rd_eq m z).symm
    · exact (B.rd_eq m x).symm
    · exact (C.rd_eq m y).symm
  · rw [A.len]; exact r1 _ _ _ _

/-- `f(z, x)`, where x may be z -/
theorem un {f : α → α} {prog : Loc → Loc → List (StmtV V)}
    (n1 : ∀ z x, prog z x = ren [z, x] (prog (nm 1) (nm 2)))
    (k1 : ok [A.n, A.n] [0] (prog (nm 1) (nm 2)) = true)
    (r1 : ∀ loc Z X, rd (exec (prog (nm 1) (nm 2)) (seen loc [A.enc Z, A.enc X])) (nm 1) A.n = A.enc (f X))
    (n2 : ∀ z, prog z z = ren [z] (prog (nm 1) (nm 1)))
    (k2 : ok [A.n] [0] (prog (nm 1) (nm 1)) = true)
    (r2 : ∀ loc Z, rd (exec (prog (nm 1) (nm 1)) (seen loc [A.enc Z])) (nm 1) A.n = A.enc (f Z)) :
    ∀ m z x, Ext z → Ext x → Same z x A.n → Result m (exec (prog z x) m) z (A.enc (f (A.get m x))) := by
  intro m z x hz hx h
  rcases h with rfl | h
  · exact mk1 A (prog := fun z => prog z z) n2 k2 r2 m x hz
  · exact mk2 A A n1 k1 r1 m z x hz hx h

/-- `f(z, x, y)`, where x and y may be z -/
theorem bin {f : α → α → α} {prog : Loc → Loc → Loc → List (StmtV V)}
    (n1 : ∀ z x y, prog z x y = ren [z, x, y] (prog (nm 1) (nm 2) (nm 3)))
    (k1 : ok [A.n, A.n, A.n] [0] (prog (nm 1) (nm 2) (nm 3)) = true)
    (r1 : ∀ loc Z X Y, rd (exec (prog (nm 1) (nm 2) (nm 3)) (seen loc [A.enc Z, A.enc X, A.enc Y])) (nm 1) A.n = A.enc (f X Y))
    (n2 : ∀ z y, prog z z y = ren [z, y] (prog (nm 1) (nm 1) (nm 2)))
    (k2 : ok [A.n, A.n] [0] (prog (nm 1) (nm 1) (nm 2)) = true)
    (r2 : ∀ loc Z Y, rd (exec (prog (nm 1) (nm 1) (nm 2)) (seen loc [A.enc Z, A.enc Y])) (nm 1) A.n = A.enc (f Z Y))
    (n3 : ∀ z x, prog z x z = ren [z, x] (prog (nm 1) (nm 2) (nm 1)))
    (k3 : ok [A.n, A.n] [0] (prog (nm 1) (nm 2) (nm 1)) = true)
    (r3 : ∀ loc Z X, rd (exec (prog (nm 1) (nm 2) (nm 1)) (seen loc [A.enc Z, A.enc X])) (nm 1) A.n = A.enc (f X Z))
    (n4 : ∀ z, prog z z z = ren [z] (prog (nm 1) (nm 1) (nm 1)))
    (k4 : ok [A.n] [0] (prog (nm 1) (nm 1) (nm 1)) = true)
    (r4 : ∀ loc Z, rd (exec (prog (nm 1) (nm 1) (nm 1)) (seen loc [A.enc Z])) (nm 1) A.n = A.enc (f Z Z)) :
    ∀ m z x y, Ext z → Ext x → Ext y → Same z x A.n → Same z y A.n →
      Result m (exec (prog z x y) m) z (A.enc (f (A.get m x) (A.get m y))) := by
  intro m z x y hz hx hy h h'
  rcases h with rfl | h <;> rcases h' with rfl | h'
  · exact mk1 A (f := fun a => f a a) (prog := fun z => prog z z z) n4 k4 r4 m y hz
  · exact mk2i A A (f := f) (prog := fun z y => prog z z y) n2 k2 r2 m x y hz hy h'
  · exact mk2i A A (f := fun a b => f b a) (prog := fun z x => prog z x z) n3 k3 r3 m y x hz hx h
  · exact mk3 A A A n1 k1 r1 m z x y hz hx hy h h'

/-- `f(z, x, y)`, where x may be z and y is of another class -/
theorem bin' {f : α → β → α} {prog : Loc → Loc → Loc → List (StmtV V)}
    (n1 : ∀ z x y, prog z x y = ren [z, x, y] (prog (nm 1) (nm 2) (nm 3)))
    (k1 : ok [A.n, A.n, B.n] [0] (prog (nm 1) (nm 2) (nm 3)) = true)
    (r1 : ∀ loc Z X Y, rd (exec (prog (nm 1) (nm 2) (nm 3)) (seen loc [A.enc Z, A.enc X, B.enc Y])) (nm 1) A.n = A.enc (f X Y))
    (n2 : ∀ z y, prog z z y = ren [z, y] (prog (nm 1) (nm 1) (nm 2)))
    (k2 : ok [A.n, B.n] [0] (prog (nm 1) (nm 1) (nm 2)) = true)
    (r2 : ∀ loc Z Y, rd (exec (prog (nm 1) (nm 1) (nm 2)) (seen loc [A.enc Z, B.enc Y])) (nm 1) A.n = A.enc (f Z Y)) :
    ∀ m z x y, Ext z → Ext x → Ext y → Same z x A.n → Apart z A.n y B.n →
      Result m (exec (prog z x y) m) z (A.enc (f (A.get m x) (B.get m y))) := by
  intro m z x y hz hx hy h h'
  rcases h with rfl | h
  · exact mk2i A B (f := f) (prog := fun z y => prog z z y) n2 k2 r2 m x y hz hy h'
  · exact mk3 A A B n1 k1 r1 m z x y hz hx hy h h'

theorem res2 {lens : List ℕ} {P : List Loc} {p : List (StmtV V)} (hP : Args lens [0, 1] P) (h : ok lens [0, 1] p = true)
    (hl : 1 < lens.length) (m : MemV V) {vs : List (List V)} {v w : List V}
    (hv : ∀ k, k < lens.length → vs.getD k [] = rd m (P.getD k ⟨0, 0⟩) (lens.getD k 0))
    (hn : v.length = lens.getD 0 0) (hn' : w.length = lens.getD 1 0)
    (hr : rd (exec p (seen (fun i => m ⟨0, i⟩) vs)) (nm 1) v.length = v)
    (hr' : rd (exec p (seen (fun i => m ⟨0, i⟩) vs)) (nm 2) w.length = w) :
    Results m (exec (ren P p) m) [(P.getD 0 ⟨0, 0⟩, v), (P.getD 1 ⟨0, 0⟩, w)] := by
  obtain ⟨h1, h2⟩ := run hP h m hv
  refine ⟨fun e he => ?_, fun l he hi => h2 l he fun a ha => ?_⟩
  · have he : e = (P.getD 0 ⟨0, 0⟩, v) ∨ e = (P.getD 1 ⟨0, 0⟩, w) := by simpa using he
    rcases he with rfl | rfl
    · show rd _ _ v.length = v
      rw [hn, h1 0 (by omega), ← hn]; exact hr
    · show rd _ _ w.length = w
      rw [hn', h1 1 hl, ← hn']; exact hr'
  · have : a = 0 ∨ a = 1 := by simpa using ha
    rcases this with rfl | rfl
    · rw [← hn]; exact hi (P.getD 0 ⟨0, 0⟩, v) (by simp)
    · rw [← hn']; exact hi (P.getD 1 ⟨0, 0⟩, w) (by simp)

/-- two written objects -/
theorem mk2w {f : α → β → α} {g : α → β → β} {prog : Loc → Loc → List (StmtV V)}
    (n1 : ∀ z x, prog z x = ren [z, x] (prog (nm 1) (nm 2)))
    (k1 : ok [A.n, B.n] [0, 1] (prog (nm 1) (nm 2)) = true)
    (r1 : ∀ loc Z X, rd (exec (prog (nm 1) (nm 2)) (seen loc [A.enc Z, B.enc X])) (nm 1) A.n = A.enc (f Z X))
    (r2 : ∀ loc Z X, rd (exec (prog (nm 1) (nm 2)) (seen loc [A.enc Z, B.enc X])) (nm 2) B.n = B.enc (g Z X)) :
    ∀ m z x, Ext z → Ext x → Apart z A.n x B.n →
      Results m (exec (prog z x) m) [(z, A.enc (f (A.get m z) (B.get m x))), (x, B.enc (g (A.get m z) (B.get m x)))] := by
  intro m z x hz hx h
  rw [n1 z]
  refine res2 (args2w hz hx h) k1 (by simp) m (vs := [A.enc (A.get m z), B.enc (B.get m x)]) (fun k hk => ?_)
    (A.len _) (B.len _) ?_ ?_
  · have : k = 0 ∨ k = 1 := by simp at hk; omega
    rcases this with rfl | rfl
    · exact (A.rd_eq m z).symm
    · exact (B.rd_eq m x).symm
  · rw [A.len]; exact r1 _ _ _
  · rw [B.len]; exact r2 _ _ _

theorem mk3w {f : α → β → γ → α} {g : α → β → γ → β} {prog : Loc → Loc → Loc → List (StmtV V)}
    (n1 : ∀ z x y, prog z x y = ren [z, x, y] (prog (nm 1) (nm 2) (nm 3)))
    (k1 : ok [A.n, B.n, C.n] [0, 1] (prog (nm 1) (nm 2) (nm 3)) = true)
    (r1 : ∀ loc Z X Y, rd (exec (prog (nm 1) (nm 2) (nm 3)) (seen loc [A.enc Z, B.enc X, C.enc Y])) (nm 1) A.n = A.enc (f Z X Y))
    (r2 : ∀ loc Z X Y, rd (exec (prog (nm 1) (nm 2) (nm 3)) (seen loc [A.enc Z, B.enc X, C.enc Y])) (nm 2) B.n = B.enc (g Z X Y)) :
    ∀ m z x y, Ext z → Ext x → Ext y → Apart z A.n x B.n → Apart z A.n y C.n → Apart x B.n y C.n →
      Results m (exec (prog z x y) m) [(z, A.enc (f (A.get m z) (B.get m x) (C.get m y))),
        (x, B.enc (g (A.get m z) (B.get m x) (C.get m y)))] := by
  intro m z x y hz hx hy h h' h''
  rw [n1 z]
  refine res2 (args3w hz hx hy h h' h'') k1 (by simp) m (vs := [A.enc (A.get m z), B.enc (B.get m x), C.enc (C.get m y)])
    (fun k hk => ?_) (A.len _) (B.len _) ?_ ?_
  · have : k = 0 ∨ k = 1 ∨ k = 2 := by simp at hk; omega
    rcases this with rfl | rfl | rfl
    · exact (A.rd_eq m z).symm
    · exact (B.rd_eq m x).symm
    · exact (C.rd_eq m y).symm
  · rw [A.len]; exact r1 _ _ _ _
  · rw [B.len]; exact r2 _ _ _ _

theorem mk4w {f : α → β → γ → δ → α} {g : α → β → γ → δ → β} {prog : Loc → Loc → Loc → Loc → List (StmtV V)}
    (n1 : ∀ z x y w, prog z x y w = ren [z, x, y, w] (prog (nm 1) (nm 2) (nm 3) (nm 4)))
    (k1 : ok [A.n, B.n, C.n, D.n] [0, 1] (prog (nm 1) (nm 2) (nm 3) (nm 4)) = true)
    (r1 : ∀ loc Z X Y W, rd (exec (prog (nm 1) (nm 2) (nm 3) (nm 4)) (seen loc [A.enc Z, B.enc X, C.enc Y, D.enc W])) (nm 1) A.n =
      A.enc (f Z X Y W))
    (r2 : ∀ loc Z X Y W, rd (exec (prog (nm 1) (nm 2) (nm 3) (nm 4)) (seen loc [A.enc Z, B.enc X, C.enc Y, D.enc W])) (nm 2) B.n =
      B.enc (g Z X Y W)) :
    ∀ m z x y w, Ext z → Ext x → Ext y → Ext w → Apart z A.n x B.n → Apart z A.n y C.n → Apart z A.n w D.n →
      Apart x B.n y C.n → Apart x B.n w D.n →
      Results m (exec (prog z x y w) m) [(z, A.enc (f (A.get m z) (B.get m x) (C.get m y) (D.get m w))),
        (x, B.enc (g (A.get m z) (B.get m x) (C.get m y) (D.get m w)))] := by
  intro m z x y w hz hx hy hw h1 h2 h3 h4 h5
  rw [n1 z]
  refine res2 (args4w hz hx hy hw h1 h2 h3 h4 h5) k1 (by simp) m
    (vs := [A.enc (A.get m z), B.enc (B.get m x), C.enc (C.get m y), D.enc (D.get m w)]) (fun k hk => ?_) (A.len _) (B.len _) ?_ ?_
  · have : k = 0 ∨ k = 1 ∨ k = 2 ∨ k = 3 := by simp at hk; omega
    rcases this with rfl | rfl | rfl | rfl
    · exact (A.rd_eq m z).symm
    · exact (B.rd_eq m x).symm
    · exact (C.rd_eq m y).symm
    · exact (D.rd_eq m w).symm
  · rw [A.len]; exact r1 _ _ _ _ _
  · rw [B.len]; exact r2 _ _ _ _ _
end

end Verif.Cpp
