import Verif.Cpp.Ate
import Verif.Props.Pairing

/-!
C74: `opt_atePairing(f, Q, P)` and the Frobenius maps of the twist on objects in memory.
-/

namespace Verif.Cpp
open Tm

/-- **C74** `FrobEndOnTwist_1`, `_2`, `_8` for Q = P and for Q apart from P -/
theorem C74_twist (m : FMem) {z x : Loc} (hz : Ext z) (hx : Ext x) (h : Same z x 4) :
    Result m (exec (twist1 z x) m) z (eQ (Ec.frobTwist1 (m.f2 x) (m.f2 (x.plus 2)))) ∧
    Result m (exec (twist2 z x) m) z (eQ (Ec.frobTwist2 (m.f2 x) (m.f2 (x.plus 2)))) ∧
    Result m (exec (twist8 z x) m) z (eQ (Ec.frobTwist8 (m.f2 x) (m.f2 (x.plus 2)))) :=
  ⟨un kQ (f := fun q => Ec.frobTwist1 q.1 q.2) (prog := twist1) (by intros; rfl) (by rfl) (by trun [twist1, Ec.frobTwist1])
    (by intros; rfl) (by rfl) (by trun [twist1, Ec.frobTwist1]) m z x hz hx h,
   un kQ (f := fun q => Ec.frobTwist2 q.1 q.2) (prog := twist2) (by intros; rfl) (by rfl) (by trun [twist2, Ec.frobTwist2])
    (by intros; rfl) (by rfl) (by trun [twist2, Ec.frobTwist2]) m z x hz hx h,
   un kQ (f := fun q => Ec.frobTwist8 q.1 q.2) (prog := twist8) (by intros; rfl) (by rfl) (by trun [twist8, Ec.frobTwist8])
    (by intros; rfl) (by rfl) (by trun [twist8, Ec.frobTwist8]) m z x hz hx h⟩

/-! ### The run on names -/

theorem exec_app {V : Type} (p q : List (StmtV V)) (m : MemV V) : exec (p ++ q) m = exec q (exec p m) := by
  induction p generalizing m with
  | nil => rfl
  | cons s p ih => exact ih _

/-- what the loop keeps: f, T and the arguments; Qneg if it was set -/
structure Inv (naf : Bool) (Q : F2 × F2) (P : Fe × Fe) (st : F12 × J F2) (M : FMem) : Prop where
  hf : rd M (nm 1) 12 = e12 st.1
  hT : rd M lT 6 = eJ st.2
  hQ : rd M (nm 2) 4 = eQ Q
  hP : rd M (nm 3) 2 = eP P
  hn : naf = true → rd M lQn 4 = eQ (Q.1, -Q.2)

/-- an object from its cells -/
theorem ofJ {M : FMem} {l : Loc} {x : J F2} (h : rd M l 6 = eJ x) : M.fJ l = x :=
  (congrArg (fun v => gJ v 0) h : gJ (rd M l 6) 0 = gJ (eJ x) 0)
theorem ofQ {M : FMem} {l : Loc} {x : F2 × F2} (h : rd M l 4 = eQ x) : M.fQ l = x :=
  (congrArg (fun v => gQ v 0) h : gQ (rd M l 4) 0 = gQ (eQ x) 0)
theorem ofP {M : FMem} {l : Loc} {x : Fe × Fe} (h : rd M l 2 = eP x) : M.fP l = x :=
  (congrArg (fun v => gP v 0) h : gP (rd M l 2) 0 = gP (eP x) 0)
theorem of12 {M : FMem} {l : Loc} {x : F12} (h : rd M l 12 = e12 x) : M.f12 l = x :=
  (congrArg (fun v => g12 v 0) h : g12 (rd M l 12) 0 = g12 (e12 x) 0)
theorem rdJ (M : FMem) (l : Loc) : rd M l 6 = eJ (M.fJ l) := rfl
theorem rdQ (M : FMem) (l : Loc) : rd M l 4 = eQ (M.fQ l) := rfl
theorem rdP (M : FMem) (l : Loc) : rd M l 2 = eP (M.fP l) := rfl

theorem Inv.mk' {naf : Bool} {Q : F2 × F2} {P : Fe × Fe} {st : F12 × J F2} {M : FMem} (h : Inv naf Q P st M) :
    M.f12 (nm 1) = st.1 ∧ M.fJ lT = st.2 ∧ M.fQ (nm 2) = Q ∧ M.fP (nm 3) = P ∧ (naf = true → M.fQ lQn = (Q.1, -Q.2)) :=
  ⟨of12 h.hf, ofJ h.hT, ofQ h.hQ, ofP h.hP, fun e => ofQ (h.hn e)⟩

/-- the two halves of a pass as functions -/
def dblF (P : Fe × Fe) (f : F12) (T : J F2) : F12 := f.square.mul024 (Miller.dblLineEval T P).1
def addF (Q : F2 × F2) (P : Fe × Fe) (f : F12) (T : J F2) : F12 := f.mul024 (Miller.addLineEval T Q P).1

section
variable (M : FMem)

theorem neg_n : rd (exec (ateNeg (nm 2)) M) lQn 4 = eQ (M.f2 (nm 2), -(M.f2 ((nm 2).plus 2))) := by
  revert M; trun [ateNeg]
theorem neg_Q : rd (exec (ateNeg (nm 2)) M) (nm 2) 4 = rd M (nm 2) 4 := by revert M; trun [ateNeg]
theorem neg_P : rd (exec (ateNeg (nm 2)) M) (nm 3) 2 = rd M (nm 3) 2 := by revert M; trun [ateNeg]
theorem neg_T : rd (exec (ateNeg (nm 2)) M) lT 6 = rd M lT 6 := by revert M; trun [ateNeg]

theorem t_T : rd (exec (ateT (nm 2)) M) lT 6 = eJ ⟨(M.fQ (nm 2)).1, (M.fQ (nm 2)).2, 1⟩ := by revert M; trun [ateT]
theorem t_Q : rd (exec (ateT (nm 2)) M) (nm 2) 4 = rd M (nm 2) 4 := by revert M; trun [ateT]
theorem t_P : rd (exec (ateT (nm 2)) M) (nm 3) 2 = rd M (nm 3) 2 := by revert M; trun [ateT]

/-- the first products as a function of T, Q, P -/
def firstF (T : J F2) (Q : F2 × F2) (P : Fe × Fe) : F12 × J F2 :=
  (F12.mul024_024 (Miller.dblLineEval T P).1 (Miller.addLineEval (Miller.dblLineEval T P).2 Q P).1,
   (Miller.addLineEval (Miller.dblLineEval T P).2 Q P).2)

theorem first_f : rd (exec (ateFirst (nm 1) (nm 2) (nm 3)) M) (nm 1) 12 =
    e12 (firstF (M.fJ lT) (M.fQ (nm 2)) (M.fP (nm 3))).1 := by
  revert M; trun [ateFirst, dblS, addS, m024024, firstF]
theorem first_T : rd (exec (ateFirst (nm 1) (nm 2) (nm 3)) M) lT 6 =
    eJ (firstF (M.fJ lT) (M.fQ (nm 2)) (M.fP (nm 3))).2 := by
  revert M; trun [ateFirst, dblS, addS, m024024, firstF]
theorem first_Q : rd (exec (ateFirst (nm 1) (nm 2) (nm 3)) M) (nm 2) 4 = rd M (nm 2) 4 := by
  revert M; trun [ateFirst, dblS, addS, m024024]
theorem first_P : rd (exec (ateFirst (nm 1) (nm 2) (nm 3)) M) (nm 3) 2 = rd M (nm 3) 2 := by
  revert M; trun [ateFirst, dblS, addS, m024024]
theorem first_n : rd (exec (ateFirst (nm 1) (nm 2) (nm 3)) M) lQn 4 = rd M lQn 4 := by
  revert M; trun [ateFirst, dblS, addS, m024024]

theorem dbl_f : rd (exec (ateDbl (nm 1) (nm 3)) M) (nm 1) 12 = e12 (dblF (M.fP (nm 3)) (M.f12 (nm 1)) (M.fJ lT)) := by
  revert M; trun [ateDbl, dblS, m024, dblF]
theorem dbl_T : rd (exec (ateDbl (nm 1) (nm 3)) M) lT 6 = eJ (Miller.dblLineEval (M.fJ lT) (M.fP (nm 3))).2 := by
  revert M; trun [ateDbl, dblS, m024]
theorem dbl_Q : rd (exec (ateDbl (nm 1) (nm 3)) M) (nm 2) 4 = rd M (nm 2) 4 := by revert M; trun [ateDbl, dblS, m024]
theorem dbl_P : rd (exec (ateDbl (nm 1) (nm 3)) M) (nm 3) 2 = rd M (nm 3) 2 := by revert M; trun [ateDbl, dblS, m024]
theorem dbl_n : rd (exec (ateDbl (nm 1) (nm 3)) M) lQn 4 = rd M lQn 4 := by revert M; trun [ateDbl, dblS, m024]

theorem pos_f : rd (exec (ateAdd (nm 1) (nm 2) (nm 3)) M) (nm 1) 12 =
    e12 (addF (M.fQ (nm 2)) (M.fP (nm 3)) (M.f12 (nm 1)) (M.fJ lT)) := by
  revert M; trun [ateAdd, addS, m024, addF]
theorem pos_T : rd (exec (ateAdd (nm 1) (nm 2) (nm 3)) M) lT 6 = eJ (Miller.addLineEval (M.fJ lT) (M.fQ (nm 2)) (M.fP (nm 3))).2 := by
  revert M; trun [ateAdd, addS, m024]
theorem pos_Q : rd (exec (ateAdd (nm 1) (nm 2) (nm 3)) M) (nm 2) 4 = rd M (nm 2) 4 := by revert M; trun [ateAdd, addS, m024]
theorem pos_P : rd (exec (ateAdd (nm 1) (nm 2) (nm 3)) M) (nm 3) 2 = rd M (nm 3) 2 := by revert M; trun [ateAdd, addS, m024]
theorem pos_n : rd (exec (ateAdd (nm 1) (nm 2) (nm 3)) M) lQn 4 = rd M lQn 4 := by revert M; trun [ateAdd, addS, m024]

theorem ngd_f : rd (exec (ateAdd (nm 1) lQn (nm 3)) M) (nm 1) 12 =
    e12 (addF (M.fQ lQn) (M.fP (nm 3)) (M.f12 (nm 1)) (M.fJ lT)) := by
  revert M; trun [ateAdd, addS, m024, addF]
theorem ngd_T : rd (exec (ateAdd (nm 1) lQn (nm 3)) M) lT 6 = eJ (Miller.addLineEval (M.fJ lT) (M.fQ lQn) (M.fP (nm 3))).2 := by
  revert M; trun [ateAdd, addS, m024]
theorem ngd_Q : rd (exec (ateAdd (nm 1) lQn (nm 3)) M) (nm 2) 4 = rd M (nm 2) 4 := by revert M; trun [ateAdd, addS, m024]
theorem ngd_P : rd (exec (ateAdd (nm 1) lQn (nm 3)) M) (nm 3) 2 = rd M (nm 3) 2 := by revert M; trun [ateAdd, addS, m024]
theorem ngd_n : rd (exec (ateAdd (nm 1) lQn (nm 3)) M) lQn 4 = rd M lQn 4 := by revert M; trun [ateAdd, addS, m024]

theorem last_f : rd (exec (ateLast (nm 1) (nm 2) (nm 3) ++ [p12 F12.finalExp (nm 1) (nm 1)]) M) (nm 1) 12 =
    e12 (Miller.finish (M.fQ (nm 2)) (M.fP (nm 3)) (M.f12 (nm 1), M.fJ lT)).finalExp := by
  revert M; trun [ateLast, twist1, twist8, addS, m024024, Miller.finish, Miller.negB, Miller.negY, Ec.frobTwist1, Ec.frobTwist8]

end

theorem inv_first (naf : Bool) (M : FMem) :
    Inv naf (M.fQ (nm 2)) (M.fP (nm 3)) (Miller.start (M.fQ (nm 2)) (M.fP (nm 3)))
      (exec (ateT (nm 2) ++ (bif naf then ateNeg (nm 2) else []) ++ ateFirst (nm 1) (nm 2) (nm 3)) M) := by
  rw [exec_app, exec_app]
  generalize h1 : exec (ateT (nm 2)) M = M1
  have a1 : M1.fJ lT = ⟨(M.fQ (nm 2)).1, (M.fQ (nm 2)).2, 1⟩ := by rw [← h1]; exact ofJ (t_T M)
  have a2 : M1.fQ (nm 2) = M.fQ (nm 2) := by rw [← h1]; exact ofQ ((t_Q M).trans (rdQ _ _))
  have a3 : M1.fP (nm 3) = M.fP (nm 3) := by rw [← h1]; exact ofP ((t_P M).trans (rdP _ _))
  generalize h2 : exec (bif naf then ateNeg (nm 2) else []) M1 = M2
  obtain ⟨b1, b2, b3, b4⟩ : M2.fJ lT = M1.fJ lT ∧ M2.fQ (nm 2) = M1.fQ (nm 2) ∧ M2.fP (nm 3) = M1.fP (nm 3) ∧
      (naf = true → rd M2 lQn 4 = eQ ((M1.fQ (nm 2)).1, -(M1.fQ (nm 2)).2)) := by
    rw [← h2]
    cases naf
    · exact ⟨rfl, rfl, rfl, fun h => nomatch h⟩
    · exact ⟨ofJ ((neg_T M1).trans (rdJ _ _)), ofQ ((neg_Q M1).trans (rdQ _ _)), ofP ((neg_P M1).trans (rdP _ _)),
        fun _ => neg_n M1⟩
  rw [a1] at b1; rw [a2] at b2 b4; rw [a3] at b3
  have e : Miller.start (M.fQ (nm 2)) (M.fP (nm 3)) = firstF (M2.fJ lT) (M2.fQ (nm 2)) (M2.fP (nm 3)) := by
    rw [b1, b2, b3]; rfl
  rw [e]
  exact ⟨first_f M2, first_T M2, (first_Q M2).trans (by rw [rdQ, b2]), (first_P M2).trans (by rw [rdP, b3]),
    fun h => (first_n M2).trans (b4 h)⟩

variable {naf : Bool} {Q : F2 × F2} {P : Fe × Fe} {st : F12 × J F2} {M : FMem}

theorem inv_pass (h : Inv naf Q P st M) (s : ℤ) (hs : naf = true ∨ 0 ≤ s) :
    Inv naf Q P (Miller.step Q (Q.1, -Q.2) P st s) (exec (atePass (nm 1) (nm 2) (nm 3) s) M) := by
  unfold atePass
  rw [exec_app]
  obtain ⟨hf, hT, hQ, hP, hn⟩ := h.mk'
  have h1 : Inv naf Q P (dblF P st.1 st.2, (Miller.dblLineEval st.2 P).2) (exec (ateDbl (nm 1) (nm 3)) M) :=
    ⟨(dbl_f M).trans (by rw [hf, hT, hP]), (dbl_T M).trans (by rw [hT, hP]), (dbl_Q M).trans h.hQ, (dbl_P M).trans h.hP,
     fun e => (dbl_n M).trans (h.hn e)⟩
  generalize exec (ateDbl (nm 1) (nm 3)) M = M1 at h1 ⊢
  obtain ⟨gf, gT, gQ, gP, gn⟩ := h1.mk'
  unfold Miller.step
  dsimp only
  by_cases hp : s > 0
  · rw [if_pos hp, if_pos hp]
    exact ⟨(pos_f M1).trans (by rw [gf, gT, gQ, gP]; rfl), (pos_T M1).trans (by rw [gT, gQ, gP]), (pos_Q M1).trans h1.hQ,
      (pos_P M1).trans h1.hP, fun e => (pos_n M1).trans (h1.hn e)⟩
  · rw [if_neg hp, if_neg hp]
    by_cases hm : s < 0
    · rw [if_pos hm, if_pos hm]
      have hb : naf = true := by
        rcases hs with h | h
        · exact h
        · omega
      exact ⟨(ngd_f M1).trans (by rw [gf, gT, gn hb, gP]; rfl), (ngd_T M1).trans (by rw [gT, gn hb, gP]), (ngd_Q M1).trans h1.hQ,
        (ngd_P M1).trans h1.hP, fun e => (ngd_n M1).trans (h1.hn e)⟩
    · rw [if_neg hm, if_neg hm]
      exact h1

theorem inv_loop (tbl : List ℤ) (hs : naf = true ∨ ∀ s ∈ tbl, 0 ≤ s) (h : Inv naf Q P st M) :
    Inv naf Q P (tbl.foldl (Miller.step Q (Q.1, -Q.2) P) st) (exec (tbl.flatMap (atePass (nm 1) (nm 2) (nm 3))) M) := by
  induction tbl generalizing st M with
  | nil => exact h
  | cons s tbl ih =>
    rw [List.flatMap_cons, exec_app, List.foldl_cons]
    exact ih (hs.imp_right fun h x hx => h x (List.mem_cons_of_mem _ hx))
      (inv_pass h s (hs.imp_right fun h => h s List.mem_cons_self))

theorem inv_last (h : Inv naf Q P st M) :
    rd (exec (ateLast (nm 1) (nm 2) (nm 3) ++ [p12 F12.finalExp (nm 1) (nm 1)]) M) (nm 1) 12 =
      e12 (Miller.finish Q P st).finalExp := by
  obtain ⟨hf, hT, hQ, hP, -⟩ := h.mk'
  rw [last_f, hf, hT, hQ, hP]

/-! ### All arguments -/

theorem pass_ren (f Q P : Loc) (s : ℤ) : atePass f Q P s = ren [f, Q, P] (atePass (nm 1) (nm 2) (nm 3) s) := by
  unfold atePass
  by_cases hp : s > 0
  · simp only [if_pos hp]; rfl
  · by_cases hm : s < 0
    · simp only [if_neg hp, if_pos hm]; rfl
    · simp only [if_neg hp, if_neg hm]; rfl
theorem pass_ok (s : ℤ) : ok [12, 4, 2] [0] (atePass (nm 1) (nm 2) (nm 3) s) = true := by
  unfold atePass
  by_cases hp : s > 0
  · rw [if_pos hp]; rfl
  · rw [if_neg hp]
    by_cases hm : s < 0
    · rw [if_pos hm]; rfl
    · rw [if_neg hm]; rfl
theorem ok_append {V : Type} {lens wr : List ℕ} {p q : List (StmtV V)} (hp : ok lens wr p = true) (hq : ok lens wr q = true) :
    ok lens wr (p ++ q) = true := by
  unfold ok at *
  rw [List.all_append, hp, hq]; rfl
theorem loop_ren (f Q P : Loc) (tbl : List ℤ) :
    tbl.flatMap (atePass f Q P) = ren [f, Q, P] (tbl.flatMap (atePass (nm 1) (nm 2) (nm 3))) := by
  induction tbl with
  | nil => rfl
  | cons s tbl ih =>
    rw [List.flatMap_cons, List.flatMap_cons, ih, pass_ren]
    exact List.map_append.symm
theorem loop_ok (tbl : List ℤ) : ok [12, 4, 2] [0] (tbl.flatMap (atePass (nm 1) (nm 2) (nm 3))) = true := by
  induction tbl with
  | nil => rfl
  | cons s tbl ih => rw [List.flatMap_cons]; exact ok_append (pass_ok s) ih

/-- **C74** `opt_atePairing(f, Q, P)` for every table of digits, if Qneg is set or not needed -/
theorem C74_table (naf : Bool) (tbl : List ℤ) (hs : naf = true ∨ ∀ s ∈ tbl.drop 2, 0 ≤ s) (m : FMem) {f Q P : Loc}
    (hf : Ext f) (hQ : Ext Q) (hP : Ext P) (h1 : Apart f 12 Q 4) (h2 : Apart f 12 P 2) :
    Result m (exec (optAte naf tbl f Q P) m) f (e12 (Miller.miller tbl (m.fQ Q) (m.fP P)).finalExp) := by
  refine mk3 k12 kQ kP (f := fun Q P => (Miller.miller tbl Q P).finalExp) (prog := optAte naf tbl) ?_ ?_ ?_ m f Q P hf hQ hP h1 h2
  · intro z x y
    unfold optAte
    rw [loop_ren]
    simp only [ren, List.map_append]
    cases naf <;> rfl
  · unfold optAte
    refine ok_append (ok_append (ok_append (ok_append (ok_append ?_ ?_) ?_) (loop_ok _)) ?_) ?_
    · rfl
    · cases naf <;> rfl
    · rfl
    · rfl
    · rfl
  · intro loc Z X Y
    unfold optAte
    rw [List.append_assoc, exec_app]
    have h := inv_first naf (seen loc [k12.enc Z, kQ.enc X, kP.enc Y])
    have hX : MemV.fQ (seen loc [k12.enc Z, kQ.enc X, kP.enc Y]) (nm 2) = X := ofQ rfl
    have hY : MemV.fP (seen loc [k12.enc Z, kQ.enc X, kP.enc Y]) (nm 3) = Y := ofP rfl
    rw [hX, hY] at h
    have h := inv_loop _ hs h
    rw [← exec_app] at h
    exact inv_last h

/-- **C74** with the table of the default build, where `useNAF` is false: the value of the model of the pairing; f gets it and
nothing else of the caller changes -/
theorem C74_pairing (m : FMem) {f Q P : Loc} (hf : Ext f) (hQ : Ext Q) (hP : Ext P) (h1 : Apart f 12 Q 4) (h2 : Apart f 12 P 2) :
    Result m (exec (optAte false Param.siTbl f Q P) m) f (e12 (Pairing.optAteAffine (m.fQ Q) (m.fP P))) :=
  C74_table false Param.siTbl (Or.inr (by decide)) m hf hQ hP h1 h2

/-! ### On the point classes -/

def kJ : ObjV Fe (J F2) := ⟨6, eJ, MemV.fJ, fun _ => rfl, fun _ _ => rfl⟩
def k3 : ObjV Fe (J Fe) := ⟨3, e3, MemV.f3, fun _ => rfl, fun _ _ => rfl⟩

theorem norm2_mem (m : FMem) {z : Loc} (hz : Ext z) : Result m (exec [norm2 z] m) z (eJ (Ec.normalize (m.fJ z))) :=
  mk1 kJ (f := Ec.normalize) (prog := fun z => [norm2 z]) (by intros; rfl) (by rfl) (by trun [norm2]) m z hz
theorem norm1_mem (m : FMem) {z : Loc} (hz : Ext z) : Result m (exec [norm1 z] m) z (e3 (Ec.normalize (m.f3 z))) :=
  mk1 k3 (f := Ec.normalize) (prog := fun z => [norm1 z]) (by intros; rfl) (by rfl) (by trun [norm1]) m z hz

theorem of3 {M : FMem} {l : Loc} {x : J Fe} (h : rd M l 3 = e3 x) : M.f3 l = x :=
  (congrArg (fun v => g3 v 0) h : g3 (rd M l 3) 0 = g3 (e3 x) 0)
/-- cells apart from a written object keep their value -/
theorem Result.keep {V : Type} {m m' : MemV V} {z : Loc} {v : List V} (h : Result m m' z v) {l : Loc} {n : ℕ} (hl : Ext l)
    (ha : Apart z v.length l n) : rd m' l n = rd m l n := by
  refine rd_ext fun i hi => h.2 _ hl ?_
  rintro ⟨h1, h2, h3⟩
  change l.o = z.o at h1
  change z.i ≤ l.i + i at h2
  change l.i + i < z.i + _ at h3
  rcases ha with ha | ha | ha
  · exact ha h1.symm
  · omega
  · omega

/-- **C74** `opt_atePairing(f, const Ec2& Q, const Ec1& P)`: f gets the pairing, Q and P their normalised coordinates, nothing
else of the caller changes -/
theorem C74_points (m : FMem) {f Q P : Loc} (hf : Ext f) (hQ : Ext Q) (hP : Ext P) (h1 : Apart f 12 Q 6) (h2 : Apart f 12 P 3)
    (h3 : Apart Q 6 P 3) :
    Results m (ecPairing f Q P m)
      [(f, e12 (Pairing.optAte (m.fJ Q) (m.f3 P))), (Q, eJ (Ec.normalize (m.fJ Q))), (P, e3 (Ec.normalize (m.f3 P)))] := by
  have e : exec [norm2 Q, norm1 P] m = exec [norm1 P] (exec [norm2 Q] m) := rfl
  unfold ecPairing
  rw [e]
  have r1 := norm2_mem m hQ
  generalize exec [norm2 Q] m = m1 at r1 ⊢
  have r2 := norm1_mem m1 hP
  rw [show m1.f3 P = m.f3 P from of3 (r1.keep hP h3)] at r2
  generalize exec [norm1 P] m1 = m2 at r2 ⊢
  have q2 : rd m2 Q 6 = eJ (Ec.normalize (m.fJ Q)) := (r2.keep hQ h3.symm).trans r1.1
  have eQ2 := ofJ q2
  have eP2 : m2.f3 P = Ec.normalize (m.f3 P) := of3 r2.1
  have r3 : Result m2 (if Ec.isInf (m2.fJ Q) || Ec.isInf (m2.f3 P) then exec [p12 (fun _ => 1) f f] m2
      else exec (optAte false Param.siTbl f Q P) m2) f (e12 (Pairing.optAte (m.fJ Q) (m.f3 P))) := by
    unfold Pairing.optAte
    dsimp only
    rw [eQ2, eP2]
    by_cases hi : (Ec.isInf (Ec.normalize (m.fJ Q)) || Ec.isInf (Ec.normalize (m.f3 P))) = true
    · rw [if_pos hi, if_pos hi]
      exact mk1 k12 (f := fun _ => 1) (prog := fun z => [p12 (fun _ => 1) z z]) (by intros; rfl) (by rfl) (by trun []) m2 f hf
    · rw [if_neg hi, if_neg hi]
      have r := C74_pairing m2 hf hQ hP (Q := Q) (P := P) (h1.imp_right (Or.imp_right fun h => by omega))
        (h2.imp_right (Or.imp_right fun h => by omega))
      have x1 : m2.fQ Q = ((m2.fJ Q).x, (m2.fJ Q).y) := rfl
      have x2 : m2.fP P = ((m2.f3 P).x, (m2.f3 P).y) := rfl
      rw [x1, x2, eQ2, eP2] at r
      exact r
  generalize (if Ec.isInf (m2.fJ Q) || Ec.isInf (m2.f3 P) then exec [p12 (fun _ => 1) f f] m2
      else exec (optAte false Param.siTbl f Q P) m2) = m3 at r3 ⊢
  refine ⟨fun x hx => ?_, fun l hl hx => ?_⟩
  · rcases List.mem_cons.1 hx with rfl | hx
    on_goal 2 => rcases List.mem_cons.1 hx with rfl | hx
    on_goal 3 => obtain rfl := List.mem_singleton.1 hx
    · exact r3.1
    · exact (r3.keep hQ h1).trans q2
    · exact (r3.keep hP h2).trans r2.1
  · rw [r3.2 l hl (hx _ List.mem_cons_self), r2.2 l hl (hx _ (List.mem_cons_of_mem _ (List.mem_cons_of_mem _ List.mem_cons_self))), r1.2 l hl (hx _ (List.mem_cons_of_mem _ List.mem_cons_self))]

/-- memory with the generators in objects 2 and 3 -/
def mG : FMem := fun l =>
  match l.o with
  | 2 => (eJ Verif.g2).getD l.i 0
  | 3 => (e3 Verif.g1).getD l.i 0
  | _ => 0
/-- the pairing of the generators, computed into object 1, is not 1 -/
example : Ec.isValid2 (mG.fJ ⟨2, 0⟩) = true ∧ Ec.isValid1 (mG.f3 ⟨3, 0⟩) = true ∧
    rd (ecPairing ⟨1, 0⟩ ⟨2, 0⟩ ⟨3, 0⟩ mG) ⟨1, 0⟩ 12 ≠ e12 1 := by
  refine ⟨g2_valid, g1_valid, fun h => ?_⟩
  have r := (C74_points mG (f := ⟨1, 0⟩) (Q := ⟨2, 0⟩) (P := ⟨3, 0⟩) (by unfold Ext; decide) (by unfold Ext; decide)
    (by unfold Ext; decide) (Or.inl (by decide)) (Or.inl (by decide)) (Or.inl (by decide))).1 _ List.mem_cons_self
  have : e12 (Pairing.optAte Verif.g2 Verif.g1) = e12 1 := r.symm.trans h
  exact Pairing.g_ne_one (congrArg (fun l => g12 l 0) this)
/-- objects of one array: a result that follows Q and P in memory -/
example : Apart (⟨1, 9⟩ : Loc) 12 ⟨1, 0⟩ 6 ∧ Apart (⟨1, 9⟩ : Loc) 12 ⟨1, 6⟩ 3 ∧ ¬ Apart (⟨1, 5⟩ : Loc) 12 ⟨1, 0⟩ 6 := by
  refine ⟨Or.inr (Or.inr (by decide)), Or.inr (Or.inr (by decide)), ?_⟩
  rintro (h | h | h)
  · exact h rfl
  · exact absurd h (by decide)
  · exact absurd h (by decide)

end Verif.Cpp
