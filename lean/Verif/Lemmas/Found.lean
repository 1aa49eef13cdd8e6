import Verif.Props.Traverse
import Verif.Model.Extract

/-!
# What `ExtractBoxes` returns are boxes it has visited
-/

namespace Mp4

/-- the box of an event, if it is a visit of a box asked for -/
def pick (below : Bool) (paths : List (List BoxType)) : Ev Unit → Option BoxInfo
  | .enter _ path bi =>
    if bi.type ≠ BoxType.any ∧ (matchPath paths (if below then path.drop 1 else path)).2 = true then some bi else none
  | _ => none

/-- a property of states is kept -/
def Gathers {S V α : Type} (J : TSt S V → Prop) (m : TM S V α) : Prop := ∀ s, J s → J (m s).2

section
variable {S V α β : Type} {J : TSt S V → Prop}

theorem gathers_bind {m : TM S V α} {f : α → TM S V β} (hm : Gathers J m) (hf : ∀ a, Gathers J (f a)) : Gathers J (m >>= f) := by
  intro s hs
  have h := hm s hs
  cases e : m s with
  | mk o s1 =>
    rw [e] at h
    cases o with
    | ok a => rw [M.bind_ok e]; exact hf a s1 h
    | err x => rw [M.bind_err e]; exact h
    | panic => rw [M.bind_panic e]; exact h
    | hang => rw [M.bind_hang e]; exact h

theorem gathers_pure (a : α) : Gathers J (pure a : TM S V α) := fun _ h => h
theorem gathers_fail (e : Err) : Gathers J (M.fail e : TM S V α) := fun _ h => h
theorem gathers_ofExcept (r : Except Err α) : Gathers J (ofExcept r : TM S V α) := by
  cases r with
  | ok a => exact gathers_pure a
  | error e => exact gathers_fail e

theorem gathers_tryM {m : TM S V α} (hm : Gathers J m) : Gathers J (tryM m) := by
  intro s hs
  have h := hm s hs
  unfold tryM
  generalize m s = x at h ⊢
  obtain ⟨o, s1⟩ := x
  cases o <;> exact h

end

section
variable {d : Bytes} (below : Bool) (paths : List (List BoxType))

/-- boxes of type `0x00000000` have not been expanded -/
def Clean : Ev Unit → Prop
  | .enter _ path _ => ∀ t ∈ path.dropLast, t ≠ BoxType.any
  | _ => True

/-- the boxes found so far are those visited so far -/
def Collected (st : TSt (List BoxInfo) Unit) : Prop :=
  st.user = st.log.filterMap (pick below paths) ∧ ∀ ev ∈ st.log, Clean ev

variable {below paths}

theorem gathers_liftP {α : Type} (m : PM α) : Gathers (Collected below paths) (liftP m : TM (List BoxInfo) Unit α) := fun s h => by
  rw [liftP_run]
  exact h

theorem gathers_emit {ev : Ev Unit} (he : pick below paths ev = none) (hc : Clean ev) : Gathers (Collected below paths) (emit ev : TM (List BoxInfo) Unit Unit) := by
  intro s h
  constructor
  · show s.user = (s.log ++ [ev]).filterMap (pick below paths)
    rw [List.filterMap_append, List.filterMap_cons_none he, List.filterMap_nil, List.append_nil]
    exact h.1
  · intro x hx
    rcases List.mem_append.1 hx with hx | hx
    · exact h.2 x hx
    · rw [List.mem_singleton.1 hx]; exact hc

theorem gathers_done {m : BoxMap} {path : List BoxType} {bi : BoxInfo} {children : Nat → Unit → TM (List BoxInfo) Unit (List Unit)}
    (r : Except Err (List Unit)) (co : Nat) : Gathers (Collected below paths) (runProg m d path bi children (extractDone r) co) := by
  cases r with
  | ok a => exact gathers_pure ()
  | error e => exact gathers_fail e

theorem gathers_expand {m : BoxMap} {path : List BoxType} {bi : BoxInfo} {children : Nat → Unit → TM (List BoxInfo) Unit (List Unit)}
    (hc : ∀ co p, Gathers (Collected below paths) (children co p)) (co : Nat) :
    Gathers (Collected below paths) (runProg m d path bi children (.expand () extractDone) co) := by
  rw [runProg]
  refine gathers_bind (gathers_tryM (gathers_liftP _)) fun r => ?_
  cases r with
  | error e => exact gathers_done _ _
  | ok co' =>
    exact gathers_bind (gathers_emit rfl trivial) fun _ => gathers_bind (gathers_tryM (hc _ _)) fun r =>
      gathers_bind (gathers_emit rfl trivial) fun _ => gathers_done _ _

/-- the handler records its box -/
theorem handler_records {m : BoxMap} {path : List BoxType} {bi : BoxInfo} {parent : Option BoxInfo}
    {children : Nat → Unit → TM (List BoxInfo) Unit (List Unit)} (hc : bi.type ≠ BoxType.any → ∀ co p, Gathers (Collected below paths) (children co p))
    (hcl : Clean (.enter parent path bi)) (st : TSt (List BoxInfo) Unit) (h : Collected below paths st) (p : Unit) :
    Collected below paths (runProg m d path bi children (extractHandler below paths ⟨p, bi, path⟩) 0
      { st with log := st.log ++ [.enter parent path bi] }).2 := by
  unfold extractHandler
  simp only
  have e : ∀ o, (st.log ++ [Ev.enter parent path bi]).filterMap (pick below paths) = st.user ++ o ↔
      (pick below paths (.enter parent path bi)).toList = o := by
    intro o
    rw [List.filterMap_append, ← h.1, List.append_cancel_left_eq]
    cases hp : pick below paths (.enter parent path bi) with
    | none => rw [List.filterMap_cons_none hp]; rfl
    | some b => rw [List.filterMap_cons_some hp]; rfl
  have hcl' : ∀ ev ∈ st.log ++ [Ev.enter parent path bi], Clean ev := by
    intro x hx
    rcases List.mem_append.1 hx with hx | hx
    · exact h.2 x hx
    · rw [List.mem_singleton.1 hx]; exact hcl
  by_cases ht : bi.type = BoxType.any
  · rw [if_pos ht, runProg]
    refine ⟨?_, hcl'⟩
    show st.user = (st.log ++ [Ev.enter parent path bi]).filterMap (pick below paths)
    have := (e []).2 (by simp [pick, ht])
    rw [this, List.append_nil]
  · rw [if_neg ht, runProg, M.bind_ok (M.get_run _), runProg, M.bind_ok (M.modify_run _ _)]
    have hk : ∀ (pr : Prog (List BoxInfo) Unit Unit), Gathers (Collected below paths) (runProg m d path bi children pr 0) →
        Collected below paths (runProg m d path bi children pr 0 ⟨st.pos,
          if (matchPath paths (if below = true then path.drop 1 else path)).2 = true then st.user ++ [bi] else st.user,
          st.log ++ [.enter parent path bi]⟩).2 := by
      intro pr hpr
      apply hpr
      refine ⟨?_, hcl'⟩
      show (if (matchPath paths (if below = true then path.drop 1 else path)).2 = true then st.user ++ [bi] else st.user) = _
      by_cases hm : (matchPath paths (if below = true then path.drop 1 else path)).2 = true
      · rw [if_pos hm]
        exact ((e [bi]).2 (by simp only [pick]; rw [if_pos ⟨ht, hm⟩]; rfl)).symm
      · rw [if_neg hm]
        have := (e []).2 (by simp only [pick]; rw [if_neg (fun h => hm h.2)]; rfl)
        rw [this, List.append_nil]
    apply hk
    by_cases hm : (matchPath paths (if below = true then path.drop 1 else path)).1 = true
    · rw [if_pos hm]; exact gathers_expand (hc ht) 0
    · rw [if_neg hm]; exact gathers_pure ()

theorem gathers_fromInternal {m : BoxMap} {rec : BoxInfo → Nat → List BoxType → Ctx → Unit → TM (List BoxInfo) Unit (List Unit)}
    (hrec : ∀ bi total path ctx p, (∀ t ∈ path, t ≠ BoxType.any) → Gathers (Collected below paths) (rec bi total path ctx p))
    (parent : Option BoxInfo) (bi : BoxInfo) (path : List BoxType) (hpath : ∀ t ∈ path, t ≠ BoxType.any) (p : Unit) :
    Gathers (Collected below paths) (fromInternal m d (extractHandler below paths) rec parent bi path p) := by
  unfold fromInternal
  refine gathers_bind (gathers_liftP _) fun _ => gathers_bind (gathers_liftP _) fun bi1 => gathers_bind (gathers_liftP _) fun bi2 => ?_
  intro st h
  have e1 : (emit (.enter parent (path ++ [bi2.type]) bi2) : TM (List BoxInfo) Unit Unit) st =
      (.ok (), { st with log := st.log ++ [.enter parent (path ++ [bi2.type]) bi2] }) := rfl
  simp only
  rw [M.bind_ok e1]
  have hr := handler_records (m := m) (d := d) (path := path ++ [bi2.type]) (bi := bi2) (parent := parent)
    (children := fun co p => rec bi2 (sub64 (add64 bi2.offset bi2.size) co) (path ++ [bi2.type]) (childCtx bi2) p)
    (fun ht co p => hrec _ _ _ _ _ (by
      intro t h
      rcases List.mem_append.1 h with h | h
      · exact hpath t h
      · rw [List.mem_singleton.1 h]; exact ht)) (by show ∀ t ∈ (path ++ [bi2.type]).dropLast, _; rw [List.dropLast_concat]; exact hpath) st h p
  have rest : ∀ r : Except Err Unit, Gathers (Collected below paths) (do
      emit (.leave parent (path ++ [bi2.type]) bi2 r)
      let v ← ofExcept r
      let _ ← liftP bi2.seekToEnd
      pure (v, bi2) : TM (List BoxInfo) Unit (Unit × BoxInfo)) := fun r =>
    gathers_bind (gathers_emit rfl trivial) fun _ => gathers_bind (gathers_ofExcept r) fun v => gathers_bind (gathers_liftP _) fun _ => gathers_pure _
  generalize hx : runProg m d (path ++ [bi2.type]) bi2
    (fun co p => rec bi2 (sub64 (add64 bi2.offset bi2.size) co) (path ++ [bi2.type]) (childCtx bi2) p)
    (extractHandler below paths ⟨p, bi2, path ++ [bi2.type]⟩) 0 = x at hr ⊢
  generalize ({ st with log := st.log ++ [.enter parent (path ++ [bi2.type]) bi2] } : TSt (List BoxInfo) Unit) = st1 at hr ⊢
  cases hy : x st1 with
  | mk o st2 =>
    rw [hy] at hr
    cases o with
    | ok a =>
      have ht : tryM x st1 = (.ok (.ok a), st2) := by unfold tryM; rw [hy]
      rw [M.bind_ok ht]; exact rest _ st2 hr
    | err e =>
      have ht : tryM x st1 = (.ok (.error e), st2) := by unfold tryM; rw [hy]
      rw [M.bind_ok ht]; exact rest _ st2 hr
    | panic =>
      have ht : tryM x st1 = (.panic, st2) := by unfold tryM; rw [hy]
      rw [M.bind_panic ht]; exact hr
    | hang =>
      have ht : tryM x st1 = (.hang, st2) := by unfold tryM; rw [hy]
      rw [M.bind_hang ht]; exact hr

theorem gathers_readStructure {m : BoxMap} : ∀ (f : Nat) (parent : Option BoxInfo) (total : Nat) (isRoot : Bool) (path : List BoxType)
    (ctx : Ctx) (p : Unit), (∀ t ∈ path, t ≠ BoxType.any) →
    Gathers (Collected below paths) (readStructure m d (extractHandler below paths) f parent total isRoot path ctx p)
  | 0, _, _, _, _, _, _, _ => fun _ h => h
  | f + 1, parent, total, isRoot, path, ctx, p, hp => by
    rw [readStructure]
    split
    · refine gathers_bind (gathers_tryM (gathers_liftP _)) fun r => ?_
      cases r with
      | error e =>
        simp only
        split
        · exact gathers_pure _
        · exact gathers_fail _
      | ok bi =>
        simp only
        split
        · exact gathers_fail _
        · exact gathers_bind (gathers_fromInternal (fun _ _ _ _ _ h => gathers_readStructure f _ _ _ _ _ _ h) _ _ _ hp _) fun x =>
            gathers_bind (gathers_readStructure f _ _ _ _ _ _ hp) fun _ => gathers_pure _
    · split
      · exact gathers_fail _
      · exact gathers_pure _

end

end Mp4
