import Verif.Props.Traverse

/-!
# C24: errors and values of handlers

The record of a traversal is checked by a small machine (`Nested`) with a stack of rows.  Each row has
the results of the handler calls in it so far and the call that is running.
-/

namespace Mp4.Props

open Mp4

variable {S P V : Type} {d : Bytes}

/-- A row of boxes being read. -/
structure Frame (V : Type) where
  /-- whose children they are -/
  parent : Option BoxInfo
  /-- what the handler has returned for them so far -/
  results : List (Except Err V)
  /-- the box whose handler is running -/
  running : Option (List BoxType × BoxInfo)

/-- What the traversal of a row returns, given what the handler returned: the first error, which is also the last result;
otherwise the values in order, or an error of the library. -/
def RowReturns (rs : List (Except Err V)) (o : Out (List V)) : Prop :=
  (∃ vs : List V, rs = vs.map .ok ∧ (o = .ok vs ∨ ∃ e, o = .err e)) ∨
  (∃ (vs : List V) (e : Err), rs = vs.map .ok ++ [.error e] ∧ o = .err e)

/-- The outcome of `Expand` as an outcome. -/
def toOut {α : Type} : Except Err α → Out α
  | .ok a => .ok a
  | .error e => .err e

/-- The record from here on, with the given stack of rows (the innermost first), and the outcome `o` of the whole. -/
def Nested (o : Out (List V)) : List (Frame V) → List (Ev V) → Prop
  | stack, [] => o = .hang ∨ ∃ rs, stack = [⟨none, rs, none⟩] ∧ RowReturns rs o
  | ⟨parent, rs, none⟩ :: stack, .enter parent' path bi :: L =>
      -- a call only if no call in this row has failed
      parent' = parent ∧ (∃ vs : List V, rs = vs.map .ok) ∧ Nested o (⟨parent, rs, some (path, bi)⟩ :: stack) L
  | ⟨parent, rs, some c⟩ :: stack, .leave parent' path bi r :: L =>
      -- the running call returns
      parent' = parent ∧ c = (path, bi) ∧ Nested o (⟨parent, rs ++ [r], none⟩ :: stack) L
  | ⟨parent, rs, some c⟩ :: stack, .openBox path bi _ :: L =>
      -- the running call calls `Expand`: a new row
      c = (path, bi) ∧ Nested o (⟨some bi, [], none⟩ :: ⟨parent, rs, some c⟩ :: stack) L
  | ⟨parent, rs, none⟩ :: ⟨parent', rs', some c⟩ :: stack, .closeBox path bi r :: L =>
      -- `Expand` returns to the running call
      c = (path, bi) ∧ parent = some bi ∧ RowReturns rs (toOut r) ∧ Nested o (⟨parent', rs', some c⟩ :: stack) L
  | _, _ => False

theorem rowReturns_cons {v : V} {rs : List (Except Err V)} {o : Out (List V)} (h : RowReturns rs o) :
    RowReturns (.ok v :: rs) (consO v o) := by
  rcases h with ⟨vs, rfl, rfl | ⟨e, rfl⟩⟩ | ⟨vs, e, rfl, rfl⟩
  · exact .inl ⟨v :: vs, rfl, .inl rfl⟩
  · exact .inl ⟨v :: vs, rfl, .inr ⟨e, rfl⟩⟩
  · exact .inr ⟨v :: vs, e, rfl, rfl⟩

theorem consO_hang {v : V} {o : Out (List V)} : consO v o = .hang ↔ o = .hang := by
  cases o <;> simp [consO]

theorem nested_enter {o : Out (List V)} {parent : Option BoxInfo} {vs : List V} {stack : List (Frame V)}
    {path : List BoxType} {bi : BoxInfo} {L : List (Ev V)}
    (h : Nested o (⟨parent, vs.map .ok, some (path, bi)⟩ :: stack) L) :
    Nested o (⟨parent, vs.map .ok, none⟩ :: stack) (.enter parent path bi :: L) := by
  rw [Nested]; exact ⟨rfl, ⟨vs, rfl⟩, h⟩

theorem tr_nested {r : Run} {L : List (Ev V)} {o : Out (List V)} (h : Tr d r L o) :
    match r with
    | .row _ parent _ _ _ _ _ => ∃ rs, (o ≠ .hang → RowReturns rs o) ∧ ∀ (vs : List V) stack rest o',
        (o = .hang → rest = [] ∧ o' = .hang) →
        (o ≠ .hang → Nested o' (⟨parent, vs.map .ok ++ rs, none⟩ :: stack) rest) →
        Nested o' (⟨parent, vs.map .ok, none⟩ :: stack) (L ++ rest)
    | .body _ path bi => ∀ parent rs stack rest o',
        (o = .hang → rest = [] ∧ o' = .hang) →
        (o ≠ .hang → Nested o' (⟨parent, rs, some (path, bi)⟩ :: stack) rest) →
        Nested o' (⟨parent, rs, some (path, bi)⟩ :: stack) (L ++ rest) := by
  induction h with
  | fuel =>
    refine ⟨[], fun h => absurd rfl h, ?_⟩
    intro vs stack rest o' h1 _
    obtain ⟨rfl, rfl⟩ := h1 rfl
    rw [List.append_nil, Nested]
    exact .inl rfl
  | over h =>
    refine ⟨[], fun _ => ?_, ?_⟩
    · cases h <;> first | exact .inl ⟨[], rfl, .inl rfl⟩ | exact .inl ⟨[], rfl, .inr ⟨_, rfl⟩⟩
    · intro vs stack rest o' _ h2
      have := h2 (by cases h <;> simp)
      rw [List.append_nil] at this
      exact this
  | stop hb h ih =>
    rename_i e
    refine ⟨[.error e], fun _ => .inr ⟨[], e, rfl, rfl⟩, ?_⟩
    intro vs stack rest o' _ h2
    rw [List.cons_append]
    refine nested_enter ?_
    rw [List.append_assoc]
    refine ih _ _ _ _ _ (fun h => by cases h) (fun _ => ?_)
    rw [List.singleton_append, Nested]
    exact ⟨rfl, rfl, h2 (by simp)⟩
  | cut hb h ih =>
    refine ⟨[], fun h => absurd rfl h, ?_⟩
    intro vs stack rest o' h1 _
    rw [List.cons_append]
    exact nested_enter (ih _ _ _ _ _ h1 (fun h => absurd rfl h))
  | noEnd hb h hneg ih =>
    rename_i v
    refine ⟨[.ok v], fun _ => .inl ⟨[v], rfl, .inr ⟨_, rfl⟩⟩, ?_⟩
    intro vs stack rest o' _ h2
    rw [List.cons_append]
    refine nested_enter ?_
    rw [List.append_assoc]
    refine ih _ _ _ _ _ (fun h => by cases h) (fun _ => ?_)
    rw [List.singleton_append, Nested]
    exact ⟨rfl, rfl, h2 (by simp)⟩
  | next hb h h' ih ih' =>
    rename_i v _ o
    obtain ⟨rs, hrs, ih'⟩ := ih'
    refine ⟨.ok v :: rs, fun h => rowReturns_cons (hrs (fun e => h (consO_hang.2 e))), ?_⟩
    intro vs stack rest o' h1 h2
    rw [List.cons_append]
    refine nested_enter ?_
    rw [List.append_assoc]
    refine ih _ _ _ _ _ (fun h => by cases h) (fun _ => ?_)
    rw [List.cons_append, Nested]
    refine ⟨rfl, rfl, ?_⟩
    have e : vs.map Except.ok ++ [Except.ok v] = (vs ++ [v]).map (Except.ok (ε := Err)) := by simp
    rw [e]
    refine ih' _ _ _ _ (fun e => h1 (consO_hang.2 e)) (fun he => ?_)
    have := h2 (fun e => he (consO_hang.1 e))
    rw [← e, List.append_assoc]
    exact this
  | ret => intro parent rs stack rest o' _ h2; exact h2 (by simp)
  | fail => intro parent rs stack rest o' _ h2; exact h2 (by simp)
  | hang =>
    intro parent rs stack rest o' h1 _
    obtain ⟨rfl, rfl⟩ := h1 rfl
    rw [List.append_nil, Nested]
    exact .inl rfl
  | expand hn h h' ih ih' =>
    intro parent rs stack rest o' h1 h2
    obtain ⟨rs', hrs', ih⟩ := ih
    rw [List.cons_append, Nested]
    refine ⟨rfl, ?_⟩
    rw [List.append_assoc]
    refine ih [] _ _ _ (fun h => by cases h) (fun _ => ?_)
    rw [List.cons_append, Nested]
    exact ⟨rfl, rfl, hrs' (by simp), ih' _ _ _ _ _ h1 h2⟩
  | expandErr hn h h' ih ih' =>
    intro parent rs stack rest o' h1 h2
    obtain ⟨rs', hrs', ih⟩ := ih
    rw [List.cons_append, Nested]
    refine ⟨rfl, ?_⟩
    rw [List.append_assoc]
    refine ih [] _ _ _ (fun h => by cases h) (fun _ => ?_)
    rw [List.cons_append, Nested]
    exact ⟨rfl, rfl, hrs' (by simp), ih' _ _ _ _ _ h1 h2⟩
  | expandCut hn h ih =>
    intro parent rs stack rest o' h1 h2
    obtain ⟨rs', hrs', ih⟩ := ih
    rw [List.cons_append, Nested]
    refine ⟨rfl, ?_⟩
    exact ih [] _ _ _ h1 (fun h => absurd rfl h)

/-- C24: in every traversal, calls of the handler are properly nested; after a handler has returned an error there is no
further call in its row, and the call of `Expand` for that row (or `ReadBoxStructure`, at the root) returns this very
error; otherwise, if it succeeds, it returns exactly what the handler returned, in file order. -/
theorem values_and_errors (hd : d.length ≤ 2 ^ 48) (h : Handler S P V) (fuel : Nat) (p : P) (s : S) (pos : Nat) :
    Nested (traverse d h fuel p s pos).1 [⟨none, [], none⟩] (traverse d h fuel p s pos).2.log := by
  obtain ⟨rs, hrs, hn⟩ := tr_nested (traverse_tr hd h fuel p s pos)
  have := hn [] [] [] (traverse d h fuel p s pos).1 (fun e => ⟨rfl, e⟩) (fun hne => by
    rw [Nested]
    exact .inr ⟨rs, rfl, hrs hne⟩)
  rw [List.append_nil] at this
  exact this

/-- What the handler returned for the boxes of the root, in order. -/
def rootResults : List (Ev V) → List (Except Err V)
  | [] => []
  | .leave none _ _ r :: L => r :: rootResults L
  | _ :: L => rootResults L

/-- The results of the innermost row and those at the root. -/
theorem nested_root {o : Out (List V)} (ho : o ≠ .hang) : ∀ (L : List (Ev V)) (stack : List (Frame V)) (rs : List (Except Err V))
    (c : Option (List BoxType × BoxInfo)), (∀ f ∈ stack, f.parent ≠ none) →
    Nested o (stack ++ [⟨none, rs, c⟩]) L → RowReturns (rs ++ rootResults L) o := by
  intro L
  induction L with
  | nil =>
    intro stack rs c hs h
    rw [Nested] at h
    rcases h with h | ⟨rs', h, h'⟩
    · exact absurd h ho
    · cases stack with
      | nil =>
        simp only [List.nil_append, List.cons.injEq, Frame.mk.injEq, true_and, and_true] at h
        rw [h.1]
        simpa [rootResults] using h'
      | cons f stack =>
        rw [List.cons_append] at h
        have := congrArg List.length h
        simp at this
  | cons ev L ih =>
    intro stack rs c hs h
    cases stack with
    | nil =>
      rw [List.nil_append] at h
      cases ev with
      | enter parent path bi =>
        cases c with
        | some c => simp [Nested] at h
        | none =>
          rw [Nested] at h
          exact ih [] rs _ (by simp) h.2.2
      | leave parent path bi r =>
        cases c with
        | none => simp [Nested] at h
        | some c =>
          rw [Nested] at h
          obtain ⟨rfl, _, h⟩ := h
          have := ih [] _ _ (by simp) h
          simpa [rootResults] using this
      | openBox path bi st =>
        cases c with
        | none => simp [Nested] at h
        | some c =>
          rw [Nested] at h
          exact ih [⟨some bi, [], none⟩] rs _ (by simp) h.2
      | closeBox path bi r => cases c <;> simp [Nested] at h
    | cons f stack =>
      obtain ⟨fp, frs, fc⟩ := f
      have hfp : fp ≠ none := hs _ List.mem_cons_self
      have hs' : ∀ f ∈ stack, f.parent ≠ none := fun f hf => hs f (List.mem_cons_of_mem _ hf)
      rw [List.cons_append] at h
      cases ev with
      | enter parent path bi =>
        cases fc with
        | some c => simp [Nested] at h
        | none =>
          rw [Nested] at h
          refine ih (⟨fp, frs, some (path, bi)⟩ :: stack) rs c ?_ h.2.2
          intro f hf
          rcases List.mem_cons.1 hf with rfl | hf
          · exact hfp
          · exact hs' f hf
      | leave parent path bi r =>
        cases fc with
        | none => simp [Nested] at h
        | some c' =>
          rw [Nested] at h
          obtain ⟨rfl, _, h⟩ := h
          have : rootResults (.leave parent path bi r :: L) = rootResults L := by
            cases parent with
            | none => exact absurd rfl hfp
            | some p => rfl
          rw [this]
          refine ih (⟨parent, frs ++ [r], none⟩ :: stack) rs c ?_ h
          intro f hf
          rcases List.mem_cons.1 hf with rfl | hf
          · exact hfp
          · exact hs' f hf
      | openBox path bi st =>
        cases fc with
        | none => simp [Nested] at h
        | some c' =>
          rw [Nested] at h
          refine ih (⟨some bi, [], none⟩ :: ⟨fp, frs, some c'⟩ :: stack) rs c ?_ h.2
          intro f hf
          rcases List.mem_cons.1 hf with rfl | hf
          · simp
          · exact hs f hf
      | closeBox path bi r =>
        cases fc with
        | some c' => simp [Nested] at h
        | none =>
          cases stack with
          | nil =>
            rw [List.nil_append] at h
            cases c with
            | none => simp [Nested] at h
            | some c =>
              rw [Nested] at h
              exact ih [] rs _ (by simp) h.2.2.2
          | cons g stack =>
            obtain ⟨gp, grs, gc⟩ := g
            rw [List.cons_append] at h
            cases gc with
            | none => simp [Nested] at h
            | some gc =>
              rw [Nested] at h
              exact ih (⟨gp, grs, some gc⟩ :: stack) rs c hs' h.2.2.2

/-- C24 at the root, directly: what `ReadBoxStructure` returns, given what the handler returned for the root boxes. -/
theorem root_values_and_errors (hd : d.length ≤ 2 ^ 48) (h : Handler S P V) (fuel : Nat) (p : P) (s : S) (pos : Nat)
    (hh : (traverse d h fuel p s pos).1 ≠ .hang) :
    RowReturns (rootResults (traverse d h fuel p s pos).2.log) (traverse d h fuel p s pos).1 := by
  have := nested_root hh _ [] [] none (by simp) (values_and_errors hd h fuel p s pos)
  simpa using this

end Mp4.Props
