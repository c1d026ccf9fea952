import Verif.Jit.Body

/-! Routines with and without stack frame. -/

namespace Verif
namespace Jit

open Fp Reg

section
variable {g : Cfg} {a : Act} {P : ℕ → ℕ} {S : ℕ} {s : St} {ra : Sub → ℕ → ℕ}

theorem Pre.less {up up' : ℕ} (h : Pre g a up P S s) (hu : up' ≤ up) : Pre g a up' P S s where
  good := h.good
  tbl := h.tbl
  args := h.args
  bnd := h.bnd
  al := h.al
  pre := h.pre
  sp := h.sp
  dep := h.dep
  top := by have := h.top; omega
  stk w hw := (h.stk w hw).sub le_rfl (by omega) le_rfl le_rfl
  stp := h.stp.sub le_rfl (by omega) le_rfl le_rfl
  sth := h.sth.sub le_rfl (by omega) le_rfl le_rfl
  stn := h.stn.sub le_rfl (by omega) le_rfl le_rfl
  outT := h.outT

/-- all runs of the program, one for each pattern of equal operands -/
def allRun (a : Act) (loc : ℕ) (prog : List Mac) (vs : List ℕ) : List (Option (List ℕ)) :=
  (subs (eqs a)).map fun E => runAct a E loc prog (canon a E vs)
/-- what they should give -/
def allSpec (a : Act) (vs : List ℕ) : List (Option (List ℕ)) := (subs (eqs a)).map fun E => some (a.f (canon a E vs))

theorem allRun_iff {loc : ℕ} {prog : List Mac} {vs : List ℕ} (h : allRun a loc prog vs = allSpec a vs) :
    ∀ E ∈ subs (eqs a), runAct a E loc prog (canon a E vs) = some (a.f (canon a E vs)) := List.map_inj_left.1 h

/-- A program with successful runs does what its `Act` says. -/
theorem sat_of_run {prog : List Mac} (hw : a.wf = true) (hrun : ∀ vs, allRun a 0 prog vs = allSpec a vs)
    (hprog : ∀ m ∈ prog, m.Ok g ra) {c : Code} (hc : c = prog.flatMap Mac.code) : Sat g ra c a := by
  intro k s P S hp
  rw [hc]
  exact body_of_run hw hprog (fun E hE vs => allRun_iff (hrun vs) E hE) hp

/-- So does a routine. -/
theorem fn_of_sat {j : Sub} {c : Code} (hs : Sat g ra c a) (hc : code g j = c ++ [.ret]) : SatFn g ra j a :=
  fun s P S hp => Fn.of hc (hs j s P S (hp.less (by omega)))

/-! ### frames -/

theorem save_ex {B : ℕ} (L : List (ℕ × Reg)) (hn : (L.map Prod.fst).Nodup) (hr : s.r rsp = 8 * B) (hb : ∀ q ∈ L, 8 * (B + q.1 + 1) ≤ B64) :
    Ex (L.map fun q => .st (pt rsp (8 * q.1)) q.2) s fun t => t.r = s.r ∧ t.x = s.x ∧ (∀ q ∈ L, t.m (B + q.1) = s.r q.2) ∧
      ∀ i, (∀ q ∈ L, i ≠ B + q.1) → t.m i = s.m i := by
  induction L generalizing s with
  | nil => exact .nil ⟨rfl, rfl, by simp, fun _ _ => rfl⟩
  | cons q L ih =>
    rw [List.map_cons, List.nodup_cons] at hn
    rw [List.map_cons]
    refine .cons (st_ok (A := B + q.1) (n := 1) (.pt (by rw [hr]; omega) (hb q List.mem_cons_self)) (by omega)) ?_
    refine (ih (s := { s with m := Function.update s.m (B + q.1) (s.r q.2) }) hn.2 hr fun p hp => hb p (List.mem_cons_of_mem _ hp)).mono ?_
    rintro t ⟨h1, h2, h3, h4⟩
    refine ⟨h1, h2, ?_, ?_⟩
    · intro p hp
      rw [List.mem_cons] at hp
      rcases hp with rfl | hp
      · rw [h4 _ fun q' hq' e => hn.1 (List.mem_map.2 ⟨q', hq', by omega⟩)]
        simp
      · exact h3 p hp
    · intro i hi
      rw [h4 i fun p hp => hi p (List.mem_cons_of_mem _ hp)]
      exact Function.update_of_ne (hi q List.mem_cons_self) _ _

theorem restore_ex {B : ℕ} (L : List (ℕ × Reg)) (hn : (L.map Prod.snd).Nodup) (hsp : rsp ∉ L.map Prod.snd) (hr : s.r rsp = 8 * B)
    (hb : ∀ q ∈ L, 8 * (B + q.1 + 1) ≤ B64) :
    Ex (L.map fun q => ld q.2 (pt rsp (8 * q.1))) s fun t => t.m = s.m ∧ t.x = s.x ∧ (∀ q ∈ L, t.r q.2 = s.m (B + q.1)) ∧
      ∀ q, q ∉ L.map Prod.snd → t.r q = s.r q := by
  induction L generalizing s with
  | nil => exact .nil ⟨rfl, rfl, by simp, fun _ _ => rfl⟩
  | cons q L ih =>
    rw [List.map_cons, List.nodup_cons] at hn
    rw [List.map_cons, List.mem_cons, not_or] at hsp
    rw [List.map_cons]
    refine .cons (ld_ok (A := B + q.1) (n := 1) (.pt (by rw [hr]; omega) (hb q List.mem_cons_self)) (by omega)) ?_
    refine (ih (s := setR s q.2 (s.m (B + q.1))) hn.2 hsp.2 (by rw [setR_r, Function.update_of_ne hsp.1, hr])
      fun p hp => hb p (List.mem_cons_of_mem _ hp)).mono ?_
    rintro t ⟨h1, h2, h3, h4⟩
    refine ⟨h1, h2, ?_, ?_⟩
    · intro p hp
      rw [List.mem_cons] at hp
      rcases hp with rfl | hp
      · rw [h4 _ hn.1, setR_r, Function.update_self]
      · rw [h3 p hp]; rfl
    · intro r hr
      rw [List.map_cons, List.mem_cons, not_or] at hr
      rw [h4 r hr.2, setR_r, Function.update_of_ne hr.1]

def frameArg : Arg → Arg
  | .ad q d => .ad (if q = r9 then rdx else q) d
  | .xm i => .xm i
  | .fix A => .fix A

/-- what the routine with the frame does: the third operand is in rdx, and the saved registers do not change -/
def Act.frame (a : Act) (gtn nq : ℕ) : Act :=
  { a with
    args := a.args.map frameArg
    clob := r9 :: a.clob.filter fun q => !hasR ((gtSaved gtn).map Prod.snd) q
    depth := a.depth + ((gtn - 4) + nq) }

/-- frame slots in words -/
def frameL (gtn nq : ℕ) : List (ℕ × Reg) := (gtSaved gtn).map fun q => ((gtn - 4) + nq - (q.1 - 4), q.2)

theorem frameL_save (gtn nq : ℕ) :
    ((gtSaved gtn).map fun q => (Op.st (pt rsp (frameP gtn nq - 8 * (q.1 - 4))) q.2 : Op)) = (frameL gtn nq).map fun q => .st (pt rsp (8 * q.1)) q.2 := by
  unfold frameL frameP
  rw [List.map_map]
  refine List.map_congr_left fun q _ => ?_
  have : 8 * (gtn - 4 + nq) - 8 * (q.1 - 4) = 8 * (gtn - 4 + nq - (q.1 - 4)) := by omega
  simp only [Function.comp, this]

theorem frameL_restore (gtn nq : ℕ) :
    ((gtSaved gtn).map fun q => ld q.2 (pt rsp (frameP gtn nq - 8 * (q.1 - 4)))) = (frameL gtn nq).map fun q => ld q.2 (pt rsp (8 * q.1)) := by
  unfold frameL frameP
  rw [List.map_map]
  refine List.map_congr_left fun q _ => ?_
  have : 8 * (gtn - 4 + nq) - 8 * (q.1 - 4) = 8 * (gtn - 4 + nq - (q.1 - 4)) := by omega
  simp only [Function.comp, this]

theorem frameL_snd (gtn nq : ℕ) : (frameL gtn nq).map Prod.snd = (gtSaved gtn).map Prod.snd := by
  unfold frameL
  rw [List.map_map]; rfl

theorem frameL_mem {gtn nq : ℕ} {q : ℕ × Reg} (h4 : 4 ≤ gtn) (h : q ∈ frameL gtn nq) : nq ≤ q.1 ∧ q.1 < (gtn - 4) + nq := by
  unfold frameL gtSaved at h
  rw [List.mem_map] at h
  obtain ⟨p, hp, rfl⟩ := h
  rw [List.mem_filter] at hp
  have h2 : p.1 ≤ gtn := of_decide_eq_true hp.2
  have h3 : 5 ≤ p.1 := by
    have := hp.1
    simp only [List.mem_cons, List.not_mem_nil, or_false] at this
    rcases this with rfl | rfl | rfl | rfl | rfl | rfl <;> simp
  simp only
  omega

theorem frameL_nodup (gtn nq : ℕ) : ((frameL gtn nq).map Prod.fst).Nodup := by
  unfold frameL
  rw [List.map_map]
  have hs : (gtSaved gtn).Sublist [(5, gt5), (6, gt6), (7, gt7), (8, gt8), (9, gt9), (10, gt10)] := List.filter_sublist
  refine List.Nodup.map_on ?_ (List.Nodup.sublist hs (by decide))
  intro p hp q hq e
  have h1 : p.1 ≤ gtn := of_decide_eq_true (List.mem_filter.1 hp).2
  have h2 : q.1 ≤ gtn := of_decide_eq_true (List.mem_filter.1 hq).2
  have h3 := hs.subset hp
  have h4 := hs.subset hq
  simp only [Function.comp] at e
  simp only [List.mem_cons, List.not_mem_nil, or_false] at h3 h4
  rcases h3 with rfl | rfl | rfl | rfl | rfl | rfl <;> rcases h4 with rfl | rfl | rfl | rfl | rfl | rfl <;>
    first | rfl | (exfalso; simp only at *; omega)

theorem saved_sub (gtn : ℕ) : (gtSaved gtn).map Prod.snd ⊆ [gt5, gt6, gt7, gt8, gt9, gt10] := by
  have hs : (gtSaved gtn).Sublist [(5, gt5), (6, gt6), (7, gt7), (8, gt8), (9, gt9), (10, gt10)] := List.filter_sublist
  exact (hs.map Prod.snd).subset

theorem saved_nodup (gtn : ℕ) : ((gtSaved gtn).map Prod.snd).Nodup := by
  have hs : (gtSaved gtn).Sublist [(5, gt5), (6, gt6), (7, gt7), (8, gt8), (9, gt9), (10, gt10)] := List.filter_sublist
  exact List.Nodup.sublist (hs.map Prod.snd) (by decide)

theorem subsp_ok {F : ℕ} (hr : s.r rsp = 8 * S) (hF : F ≤ S) (hS : 8 * S < B64) :
    ∃ t, doOp s (ori .sub rsp (8 * F)) = .ok t ∧ t.r = Function.update s.r rsp (8 * (S - F)) ∧ t.x = s.x ∧ t.m = s.m := by
  refine ⟨_, ori_ok (v := (8 * (S - F), 0)) ?_, rfl, rfl, rfl⟩
  show Res.ok (sbb _ _ 0) = _
  unfold sbb
  rw [hr]
  congr 2
  · omega
  · rw [if_neg (by omega)]

theorem addsp_ok {F B : ℕ} (hr : s.r rsp = 8 * B) (hS : 8 * (B + F) < B64) :
    ∃ t, doOp s (ori .add rsp (8 * F)) = .ok t ∧ t.r = Function.update s.r rsp (8 * (B + F)) ∧ t.x = s.x ∧ t.m = s.m := by
  refine ⟨_, ori_ok (v := (8 * (B + F), 0)) ?_, rfl, rfl, rfl⟩
  show Res.ok (adc _ _ 0) = _
  unfold adc
  rw [hr]
  congr 2
  · omega
  · omega

theorem store_ex {gtn nq : ℕ} (h4 : 4 ≤ gtn) (hr : s.r rsp = 8 * S) (hF : (gtn - 4) + nq ≤ S) (hS : 8 * S < B64) :
    Ex (storeReg gtn nq) s fun t => t.r rsp = 8 * (S - ((gtn - 4) + nq)) ∧ t.r r9 = s.r rdx ∧ (∀ q, q ≠ rsp → q ≠ r9 → t.r q = s.r q) ∧
      t.x = s.x ∧ (∀ q ∈ frameL gtn nq, t.m (S - ((gtn - 4) + nq) + q.1) = s.r q.2) ∧
      ∀ i, ¬(S - ((gtn - 4) + nq) + nq ≤ i ∧ i < S) → t.m i = s.m i := by
  unfold storeReg
  rw [frameL_save, List.append_assoc]
  refine Ex.append (P := fun t => t.r = Function.update s.r rsp (8 * (S - ((gtn - 4) + nq))) ∧ t.x = s.x ∧ t.m = s.m) ?_ ?_
  · by_cases h0 : 0 < frameP gtn nq
    · rw [if_pos h0]
      obtain ⟨t, e, h⟩ := subsp_ok hr hF hS
      exact .cons e (.nil h)
    · rw [if_neg h0]
      refine .nil ⟨?_, rfl, rfl⟩
      have : (gtn - 4) + nq = 0 := by unfold frameP at h0; omega
      rw [this, Nat.sub_zero, ← hr, Function.update_eq_self]
  rintro t ⟨h1, h2, h3⟩
  refine Ex.append (save_ex (B := S - ((gtn - 4) + nq)) (frameL gtn nq) (frameL_nodup _ _) (by rw [h1, Function.update_self])
    fun q hq => by have := frameL_mem h4 hq; omega) ?_
  rintro u ⟨i1, i2, i3, i4⟩
  refine .cons (mv_ok _ _ _) (.nil ⟨?_, ?_, ?_, by rw [setR_x, i2, h2], ?_, ?_⟩)
  · rw [setR_r, Function.update_of_ne (by decide), i1, h1, Function.update_self]
  · rw [setR_r, Function.update_self, i1, h1, Function.update_of_ne (by decide)]
  · intro q n1 n2
    rw [setR_r, Function.update_of_ne n2, i1, h1, Function.update_of_ne n1]
  · intro q hq
    rw [setR_m, i3 q hq, h1, Function.update_of_ne]
    intro e
    have : q.2 ∈ (frameL gtn nq).map Prod.snd := List.mem_map.2 ⟨q, hq, rfl⟩
    rw [frameL_snd, e] at this
    exact absurd (saved_sub gtn this) (by decide)
  · intro i hi
    rw [setR_m, i4 i fun q hq e => hi (by have := frameL_mem h4 hq; omega), h3]

theorem rest_ex {gtn nq B : ℕ} (h4 : 4 ≤ gtn) (hr : s.r rsp = 8 * B) (hS : 8 * (B + ((gtn - 4) + nq)) < B64) :
    Ex (restoreReg gtn nq) s fun t => t.r rsp = 8 * (B + ((gtn - 4) + nq)) ∧ (∀ q ∈ frameL gtn nq, t.r q.2 = s.m (B + q.1)) ∧
      (∀ q, q ≠ rsp → q ∉ (gtSaved gtn).map Prod.snd → t.r q = s.r q) ∧ t.x = s.x ∧ t.m = s.m := by
  unfold restoreReg
  rw [frameL_restore]
  have hsp : rsp ∉ (gtSaved gtn).map Prod.snd := fun h => absurd (saved_sub gtn h) (by decide)
  refine Ex.append (restore_ex (B := B) (frameL gtn nq) (by rw [frameL_snd]; exact saved_nodup gtn) (by rw [frameL_snd]; exact hsp) hr
    fun q hq => by have := frameL_mem h4 hq; omega) ?_
  rintro t ⟨h1, h2, h3, h4'⟩
  rw [frameL_snd] at h4'
  have hrt : t.r rsp = 8 * B := by rw [h4' rsp hsp, hr]
  by_cases h0 : 0 < frameP gtn nq
  · rw [if_pos h0]
    obtain ⟨u, e, i1, i2, i3⟩ := addsp_ok hrt hS
    refine .cons e (.nil ⟨by rw [i1, Function.update_self], ?_, ?_, by rw [i2, h2], by rw [i3, h1]⟩)
    · intro q hq
      have : q.2 ≠ rsp := fun e => hsp (by rw [← e, ← frameL_snd gtn nq]; exact List.mem_map.2 ⟨q, hq, rfl⟩)
      rw [i1, Function.update_of_ne this, h3 q hq]
    · intro q n1 n2
      rw [i1, Function.update_of_ne n1, h4' q n2]
  · rw [if_neg h0]
    have : (gtn - 4) + nq = 0 := by unfold frameP at h0; omega
    exact .nil ⟨by rw [this, Nat.add_zero, hrt], h3, fun q _ n2 => h4' q n2, h2, h1⟩

/-- operands of a body in a frame -/
def bodyArg : Arg → Bool
  | .ad q _ => Nat.beq (Reg.idx q) 7 || Nat.beq (Reg.idx q) 6 || Nat.beq (Reg.idx q) 9
  | .xm _ => true
  | .fix _ => true

/-- with a claim `E` about rax, which is not restored -/
theorem frame_at' {j : Sub} {gtn nq : ℕ} {body : Code} (E : ℕ → Prop) (h4 : 4 ≤ gtn) (hcode : code g j = frame gtn nq body)
    (hp : Pre g (a.frame gtn nq) 1 P S s)
    (hbody : ∀ t, Pre g a nq P (S - ((gtn - 4) + nq)) t → (∀ q, q ≠ rsp → q ≠ r9 → t.r q = s.r q) →
      (∀ i, (i < S - ((gtn - 4) + nq) ∨ S ≤ i) → t.m i = s.m i) →
      At (code g) ra j (body ++ (ops (restoreReg gtn nq) ++ [.ret])) (ops (restoreReg gtn nq) ++ [.ret]) t
        fun u => Post g a nq P (S - ((gtn - 4) + nq)) t u ∧ E (u.r rax)) (ha : a.args.all bodyArg = true)
    (hpre : a.pre = []) (hpost : a.post = []) (hsp : rsp ∉ a.clob) (ho : ∀ e ∈ a.outs, e.w < a.args.length ∧ e.o + e.n ≤ a.l e.w)
    (hi : ∀ e ∈ a.ins, e.w < a.args.length ∧ e.o + e.n ≤ a.l e.w) :
    Fn (code g) ra j s fun v => Post g (a.frame gtn nq) 0 P S s v ∧ E (v.r rax) := by
  set F := (gtn - 4) + nq with hF
  have hd : a.depth + F ≤ S := hp.dep
  have htop := hp.top
  have hlen : (a.frame gtn nq).args.length = a.args.length := by simp [Act.frame]
  have hfl : ∀ w, (a.frame gtn nq).l w = a.l w := fun _ => rfl
  have hcode' : code g j = ops (storeReg gtn nq) ++ (body ++ (ops (restoreReg gtn nq) ++ [.ret])) := by
    rw [hcode]; unfold frame; rfl
  refine Fn.at (l := []) ?_
  rw [hcode']
  refine At.trans (((Trip.ops (store_ex h4 hp.sp (by omega) (by omega))).good hp.good).at _) ?_
  rintro t ⟨gt, t1, t2, t3, t4, t5, t6⟩
  rw [← hF] at t1 t5 t6
  have hdep : (a.frame gtn nq).depth = a.depth + F := rfl
  have hpre' : Pre g a nq P (S - F) t :=
    { good := gt
      tbl := hp.tbl.congr
        (fun i a1 a2 => t6 i fun hc => hp.stp i (by rw [hdep]; omega) (by rw [hdep]; omega) a1 a2)
        (fun i a1 a2 => t6 i fun hc => hp.sth i (by rw [hdep]; omega) (by rw [hdep]; omega) a1 a2)
        (fun i a1 a2 => t6 i fun hc => hp.stn i (by rw [hdep]; omega) (by rw [hdep]; omega) a1 a2)
      args := by
        intro w e he
        have h1 : (a.frame gtn nq).args[w]? = some (frameArg e) := by
          show (a.args.map frameArg)[w]? = _
          rw [List.getElem?_map, he]; rfl
        have h2 := hp.args w _ h1
        rw [← h2]
        have h3 := List.all_eq_true.1 ha e (List.mem_of_getElem? he)
        cases e with
        | xm i => show t.x i = s.x i; rw [t4]
        | fix A => rfl
        | ad q d =>
          show t.r q + d = s.r (if q = r9 then rdx else q) + d
          simp only [bodyArg, Bool.or_eq_true] at h3
          by_cases hq : q = r9
          · rw [if_pos hq, hq, t2]
          · rw [if_neg hq, t3 q ?_ hq]
            rintro rfl
            rcases h3 with (h3 | h3) | h3 <;> have := Nat.eq_of_beq_eq_true h3 <;> simp [Reg.idx] at this
      bnd := fun w hw => hp.bnd w (by rw [hlen]; exact hw)
      al := hp.al
      pre := by rw [hpre]; simp
      sp := t1
      dep := by omega
      top := by omega
      stk := fun w hw => (hp.stk w (by rw [hlen]; exact hw)).sub (by rw [hdep]; omega) (by rw [hdep]; omega) le_rfl le_rfl
      stp := hp.stp.sub (by rw [hdep]; omega) (by rw [hdep]; omega) le_rfl le_rfl
      sth := hp.sth.sub (by rw [hdep]; omega) (by rw [hdep]; omega) le_rfl le_rfl
      stn := hp.stn.sub (by rw [hdep]; omega) (by rw [hdep]; omega) le_rfl le_rfl
      outT := hp.outT }
  refine At.trans (hbody t hpre' t3 (fun i hi => t6 i (by omega))) ?_
  rintro u ⟨hu, hE⟩
  have hur : u.r rsp = 8 * (S - F) := by rw [hu.reg rsp hsp, t1]
  refine At.mono ((Trip.ops (rest_ex h4 hur (by rw [← hF]; omega))).at _) ?_
  rintro v ⟨v1, v2, v3, v4, v5⟩
  -- words of the frame above the locals
  have keep : ∀ i, S - F + nq ≤ i → i < S → u.m i = t.m i := by
    intro i i1 i2
    refine hu.fr i (fun e he hc => ?_) (by omega)
    have h5 := ho e he
    have := (hp.stk e.w (by rw [hlen]; exact h5.1)).out (i := i) (by rw [hdep]; omega) (by rw [hdep]; omega)
    rw [hfl] at this
    omega
  refine ⟨⟨?_, ?_, ?_, ?_, ?_⟩, by rw [v3 rax (by decide) fun h => absurd (saved_sub gtn h) (by decide)]; exact hE⟩
  · intro i h1 h2
    rw [hdep] at h2
    rw [v5, hu.fr i h1 (by omega), t6 i (by omega)]
  · intro p hm
    rw [v5]
    refine hu.val p ?_
    have e : a.inp P t.m = (a.frame gtn nq).inp P s.m := by
      unfold Act.inp
      refine List.map_congr_left fun e he => vn_congr fun i i1 i2 => t6 i fun hc => ?_
      have h5 := hi e he
      have := (hp.stk e.w (by rw [hlen]; exact h5.1)).out (i := i) (by rw [hdep]; omega) (by rw [hdep]; omega)
      rw [hfl] at this
      omega
    rw [e]; exact hm
  · intro q hq
    replace hq : q ∉ r9 :: a.clob.filter fun q => !hasR ((gtSaved gtn).map Prod.snd) q := hq
    rw [List.mem_cons, not_or, List.mem_filter] at hq
    rcases eq_or_ne q rsp with rfl | hne
    · rw [v1, hp.sp, ← hF]; omega
    · by_cases hsv : q ∈ (gtSaved gtn).map Prod.snd
      · rw [← frameL_snd gtn nq, List.mem_map] at hsv
        obtain ⟨p, hp', rfl⟩ := hsv
        have := frameL_mem h4 hp'
        rw [v2 p hp', keep _ (by omega) (by omega), t5 p hp']
      · have hc : q ∉ a.clob := by
          intro hc
          refine hq.2 ⟨hc, ?_⟩
          cases hh : hasR ((gtSaved gtn).map Prod.snd) q
          · rfl
          · exact absurd (hasR_iff hh) hsv
        rw [v3 q hne hsv, hu.reg q hc, t3 q hne hq.1]
  · intro i hi
    rw [v4, hu.xmm i hi, t4]
  · intro e he
    replace he : e ∈ a.post := he
    rw [hpost] at he
    cases he

theorem frame_at {j : Sub} {gtn nq : ℕ} {body : Code} (h4 : 4 ≤ gtn) (hcode : code g j = frame gtn nq body)
    (hp : Pre g (a.frame gtn nq) 1 P S s)
    (hbody : ∀ t, Pre g a nq P (S - ((gtn - 4) + nq)) t → (∀ q, q ≠ rsp → q ≠ r9 → t.r q = s.r q) →
      (∀ i, (i < S - ((gtn - 4) + nq) ∨ S ≤ i) → t.m i = s.m i) →
      At (code g) ra j (body ++ (ops (restoreReg gtn nq) ++ [.ret])) (ops (restoreReg gtn nq) ++ [.ret]) t (Post g a nq P (S - ((gtn - 4) + nq)) t)) (ha : a.args.all bodyArg = true)
    (hpre : a.pre = []) (hpost : a.post = []) (hsp : rsp ∉ a.clob) (ho : ∀ e ∈ a.outs, e.w < a.args.length ∧ e.o + e.n ≤ a.l e.w)
    (hi : ∀ e ∈ a.ins, e.w < a.args.length ∧ e.o + e.n ≤ a.l e.w) : Fn (code g) ra j s (Post g (a.frame gtn nq) 0 P S s) :=
  let ⟨t, l, e, q⟩ := frame_at' (fun _ => True) h4 hcode hp (fun t h1 h2 h3 => (hbody t h1 h2 h3).mono fun _ h => ⟨h, trivial⟩) ha hpre hpost hsp ho hi
  ⟨t, l, e, q.1⟩

theorem frame_fn {j : Sub} {gtn nq : ℕ} {body : Code} (h4 : 4 ≤ gtn) (hcode : code g j = frame gtn nq body)
    (hbody : ∀ k s P S, Pre g a nq P S s → Trip (code g) ra k body s (Post g a nq P S s)) (ha : a.args.all bodyArg = true)
    (hpre : a.pre = []) (hpost : a.post = []) (hsp : rsp ∉ a.clob) (ho : ∀ e ∈ a.outs, e.w < a.args.length ∧ e.o + e.n ≤ a.l e.w)
    (hi : ∀ e ∈ a.ins, e.w < a.args.length ∧ e.o + e.n ≤ a.l e.w) : SatFn g ra j (a.frame gtn nq) :=
  fun _ _ _ hp => frame_at h4 hcode hp (fun t hp _ _ => (hbody j t _ _ hp).at _) ha hpre hpost hsp ho hi

end

end Jit
end Verif
