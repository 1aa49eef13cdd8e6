import Verif.Lemmas.TraverseAny
import Verif.Props.Values

/-! # What every traversal does, with an arbitrary registry of box types -/

namespace Mp4.Reg

open Mp4 Mp4.Props

variable {S P V : Type} {m : BoxMap} {d : Bytes}

/-- A run of `ReadBoxStructure` with the registry `m`; the reader may be anywhere before (`pos`). -/
def traverse (m : BoxMap) (d : Bytes) (h : Handler S P V) (fuel : Nat) (p : P) (s : S) (pos : Nat := 0) : Out (List V) × TSt S V :=
  readBoxStructure m d h fuel p ⟨pos, s, []⟩

theorem traverse_tr (hd : Good m d) (h : Handler S P V) (fuel : Nat) (p : P) (s : S) (pos : Nat) :
    Tr m d (.row fuel none 0 true [] {} 0) (traverse m d h fuel p s pos).2.log (traverse m d h fuel p s pos).1 := by
  obtain ⟨L, hL, hT⟩ := readBoxStructure_tr hd h fuel p ⟨pos, s, []⟩
  simp only [List.nil_append] at hL
  rw [← hL] at hT
  exact hT

/-- No further box can be visited at `pos`: the position cannot be reached, the parent is used up, there is no box header,
the box is larger than what is left of the parent, or it is an `ftyp` (of the file) or `keys` box that cannot be decoded. -/
def NoBox (m : BoxMap) (d : Bytes) (parent : Option BoxInfo) (pos : Nat) : Prop :=
  2 ^ 63 ≤ pos ∨ (∃ p, parent = some p ∧ room p pos < 8) ∨
  (∀ s h t x, isoHeader (d.drop pos) ≠ .box s h t x) ∨
  ∃ s h t x, isoHeader (d.drop pos) = .box s h t x ∧
    ((∃ p, parent = some p ∧ room p pos < s) ∨
     ((parent = none ∧ t = tFtyp ∨ t = tKeys) ∧
      ∃ ctx e, (m.unmarshalAny d t (sub64 s h) ctx (pos + h)).1 = .err e))

/-- The next event is the call for the box at `pos`, or there is none in this row because there is no such box (or the run
is cut off, `hung`). -/
def NextIsAt (m : BoxMap) (d : Bytes) (hung : Prop) (parent : Option BoxInfo) (path : List BoxType) (pos : Nat)
    (next : Option (Ev V)) : Prop :=
  (∃ bi, next = some (.enter parent (path ++ [bi.type]) bi) ∧ bi.offset = pos) ∨
  (next = none ∧ hung) ∨
  ((next = none ∨ ∃ p r, parent = some p ∧ next = some (.closeBox path p r)) ∧ NoBox m d parent pos)

/-- What may follow an event. -/
def MayFollow (m : BoxMap) (d : Bytes) (hung : Prop) : Ev V → Option (Ev V) → Prop
  | .leave parent path bi (.ok _), next => NextIsAt m d hung parent path.dropLast (endOf bi) next
  | .openBox path bi start, next => NextIsAt m d hung (some bi) path start next
  | _, _ => True

theorem rowEnd_noBox (hd : Good m d) {parent : Option BoxInfo} {total : Nat} {isRoot : Bool}
    {path : List BoxType} {ctx : Ctx} {pos : Nat} {o : Out (List V)} (hr : RowOf parent total isRoot path pos)
    (h : RowEnd m d total isRoot path ctx pos o) : NoBox m d parent pos := by
  rcases hr with ⟨rfl, rfl, rfl⟩ | ⟨rfl, hp, p, rfl, rfl, hpos⟩
  · cases h with
    | eof hr h => exact .inr (.inr (.inl (readBoxInfo_err_iso hd.len h)))
    | header hr h => exact .inr (.inr (.inl (readBoxInfo_err_iso hd.len h)))
    | payload hr h hs ht hb =>
      exact .inr (.inr (.inr ⟨_, _, _, _, readBoxInfo_ok_iso hd.len h, .inr ⟨by
        rcases ht with h | h
        · exact .inl ⟨rfl, h.2⟩
        · exact .inr h, _, _, hb⟩⟩))
    | large hr => cases hr
    | short hr => cases hr
    | full hr => cases hr
  · cases h with
    | eof hr h => cases hr
    | header hr h => exact .inr (.inr (.inl (readBoxInfo_err_iso hd.len h)))
    | payload hr h hs ht hb =>
      exact .inr (.inr (.inr ⟨_, _, _, _, readBoxInfo_ok_iso hd.len h, .inr ⟨by
        rcases ht with h | h
        · exact absurd h.1 hp
        · exact .inr h, _, _, hb⟩⟩))
    | large hr h8 h hs => exact .inr (.inr (.inr ⟨_, _, _, _, readBoxInfo_ok_iso hd.len h, .inl ⟨p, rfl, hs⟩⟩))
    | short hr h8 => exact .inr (.inl ⟨p, rfl, h8⟩)
    | full hr h8 => exact .inr (.inl ⟨p, rfl, h8⟩)

theorem rowOf_next {parent : Option BoxInfo} {total : Nat} {isRoot : Bool} {path : List BoxType} {ctx : Ctx} {pos : Nat}
    {bi : BoxInfo} (hr : RowOf parent total isRoot path pos) (hb : BoxAt m d total isRoot path ctx pos bi) :
    RowOf parent (sub64 total bi.size) isRoot path ((bi.offset + bi.size) % U64) := by
  rcases hr with ⟨rfl, rfl, rfl⟩ | ⟨rfl, hp, p, rfl, rfl, hpos⟩
  · exact .inl ⟨rfl, rfl, rfl⟩
  · right
    refine ⟨rfl, hp, p, rfl, ?_, by simp only [U64]; omega⟩
    have h1 := hb.offset
    have h2 := hb.hdr.lt
    have h3 := hb.fit
    simp only [Bool.false_eq_true, false_or] at h3
    unfold sub64 room at *
    simp only [U64] at *
    omega

theorem tr_follows (hd : Good m d) (hung : Prop) {r : Run} {L : List (Ev V)} {o : Out (List V)}
    (h : Tr m d r L o) :
    match r with
    | .row _ parent total isRoot path _ pos => RowOf parent total isRoot path pos → (o = .hang → hung) →
        ∀ t, (t = none ∨ ∃ p r, parent = some p ∧ t = some (.closeBox path p r)) → (o = .hang → t = none) →
          FollowsT (MayFollow m d hung) L t ∧ NextIsAt m d hung parent path pos (L.head?.or t)
    | .body _ path bi => path ≠ [] → HeaderAt d bi → (o = .hang → hung) → ∀ t, (o = .hang → t = none) →
        FollowsT (MayFollow m d hung) L t := by
  induction h with
  | fuel =>
    intro hr hh t ht ht'
    exact ⟨trivial, .inr (.inl ⟨ht' rfl, hh rfl⟩)⟩
  | over h =>
    intro hr hh t ht ht'
    exact ⟨trivial, .inr (.inr ⟨ht, rowEnd_noBox hd hr h⟩)⟩
  | stop hb h ih =>
    intro hr hh t ht ht'
    refine ⟨⟨trivial, ?_⟩, .inl ⟨_, rfl, hb.offset⟩⟩
    rw [followsT_append]
    exact ⟨ih (by simp) hb.hdr (by simp) _ (by simp), trivial, trivial⟩
  | cut hb h ih =>
    intro hr hh t ht ht'
    refine ⟨⟨trivial, ?_⟩, .inl ⟨_, rfl, hb.offset⟩⟩
    exact ih (by simp) hb.hdr hh _ ht'
  | noEnd hb h hneg ih =>
    intro hr hh t ht ht'
    refine ⟨⟨trivial, ?_⟩, .inl ⟨_, rfl, hb.offset⟩⟩
    rw [followsT_append]
    refine ⟨ih (by simp) hb.hdr (by simp) _ (by simp), ?_, trivial⟩
    simp only [MayFollow, List.dropLast_concat, List.head?_nil, Option.none_or]
    exact .inr (.inr ⟨ht, .inl hneg⟩)
  | next hb h h' ih ih' =>
    rename_i o
    intro hr hh t ht ht'
    refine ⟨⟨trivial, ?_⟩, .inl ⟨_, rfl, hb.offset⟩⟩
    rw [followsT_append]
    have hho : o = .hang → hung := fun e => hh (by rw [e]; rfl)
    have hto : o = .hang → t = none := fun e => ht' (by rw [e]; rfl)
    obtain ⟨h1, h2⟩ := ih' (rowOf_next hr hb) hho t ht hto
    refine ⟨ih (by simp) hb.hdr (by simp) _ (by simp), ?_, h1⟩
    simp only [MayFollow, List.dropLast_concat]
    exact h2
  | ret => intro _ _ _ _ _; trivial
  | fail => intro _ _ _ _ _; trivial
  | hang => intro _ _ _ _ _; trivial
  | expand hn h h' ih ih' =>
    intro hp hb hh t ht
    have hpn := (payloadN_bound hd hb.inside hn).1
    obtain ⟨h1, h2⟩ := ih (rowOf_children hp hd.len hpn) (by simp) (some (.closeBox _ _ _)) (.inr ⟨_, _, rfl, rfl⟩) (by simp)
    refine ⟨?_, ?_⟩
    · rw [List.head?_append, Option.or_assoc]
      exact h2
    · rw [followsT_append]
      exact ⟨h1, trivial, ih' hp hb hh t ht⟩
  | expandErr hn h h' ih ih' =>
    intro hp hb hh t ht
    have hpn := (payloadN_bound hd hb.inside hn).1
    obtain ⟨h1, h2⟩ := ih (rowOf_children hp hd.len hpn) (by simp) (some (.closeBox _ _ _)) (.inr ⟨_, _, rfl, rfl⟩) (by simp)
    refine ⟨?_, ?_⟩
    · rw [List.head?_append, Option.or_assoc]
      exact h2
    · rw [followsT_append]
      exact ⟨h1, trivial, ih' hp hb hh t ht⟩
  | expandCut hn h ih =>
    intro hp hb hh t ht
    have hpn := (payloadN_bound hd hb.inside hn).1
    obtain ⟨h1, h2⟩ := ih (rowOf_children hp hd.len hpn) hh t (.inl (ht rfl)) ht
    exact ⟨h2, h1⟩

/-- facts about single events -/
def EvFact (m : BoxMap) (d : Bytes) : Ev V → Prop
  | .enter parent path bi => HeaderAt d bi ∧ path.getLast? = some bi.type ∧ (parent = none ↔ path.length = 1) ∧
      ∀ p, parent = some p → Regular p → Inside p bi
  | .openBox _ bi start => HeaderAt d bi ∧ ∃ n, PayloadN m d bi n ∧ start = bi.offset + bi.headerSize + n
  | _ => True

theorem tr_facts (hd : Good m d) {r : Run} {L : List (Ev V)} {o : Out (List V)} (h : Tr m d r L o) :
    match r with
    | .row _ parent total isRoot path _ pos => RowIn parent isRoot total pos → (parent = none ↔ path = []) →
        ∀ ev ∈ L, EvFact m d ev
    | .body _ path bi => path ≠ [] → HeaderAt d bi → ∀ ev ∈ L, EvFact m d ev := by
  have henter : ∀ {total isRoot path ctx pos bi parent}, BoxAt m d total isRoot path ctx pos bi →
      RowIn parent isRoot total pos → (parent = none ↔ path = []) →
      EvFact m d (.enter parent (path ++ [bi.type]) bi : Ev V) := by
    intro total isRoot path ctx pos bi parent hb hr hp
    refine ⟨hb.hdr, by simp, by rw [hp]; simp, ?_⟩
    intro p hpp hreg
    obtain ⟨h1, h2, h3⟩ := hr p hpp hreg
    have h4 := hb.fit
    rw [h1] at h4
    simp only [Bool.false_eq_true, false_or] at h4
    have h5 := hb.offset
    unfold Inside
    omega
  have hnext : ∀ {total isRoot path ctx pos bi parent}, BoxAt m d total isRoot path ctx pos bi →
      RowIn parent isRoot total pos → RowIn parent isRoot (sub64 total bi.size) ((bi.offset + bi.size) % U64) := by
    intro total isRoot path ctx pos bi parent hb hr p hpp hreg
    obtain ⟨h1, h2, h3⟩ := hr p hpp hreg
    have h4 := hb.fit
    rw [h1] at h4
    simp only [Bool.false_eq_true, false_or] at h4
    have h5 := hb.offset
    have h6 := hreg.2
    have h7 := hb.hdr.lt
    refine ⟨h1, ?_⟩
    unfold sub64
    simp only [U64] at *
    omega
  have hchild : ∀ {bi n}, HeaderAt d bi → PayloadN m d bi n →
      RowIn (some bi) false (sub64 (add64 bi.offset bi.size) (bi.offset + bi.headerSize + n)) (bi.offset + bi.headerSize + n) := by
    intro bi n hb hn p hpp hreg
    cases hpp
    have h1 := payloadN_bound hd hb.inside hn
    have h2 := hreg.1
    have h3 := hreg.2
    have h4 := hb.inside
    refine ⟨rfl, ?_⟩
    unfold sub64 add64 at *
    simp only [U64, maxAlloc] at *
    omega
  induction h with
  | fuel => intro _ _; simp
  | over h => intro _ _; simp
  | stop hb h ih =>
    intro hr hp ev hev
    rcases List.mem_cons.1 hev with rfl | hev
    · exact henter hb hr hp
    · rcases List.mem_append.1 hev with hev | hev
      · exact ih (by simp) hb.hdr ev hev
      · simp only [List.mem_singleton] at hev
        subst hev
        trivial
  | cut hb h ih =>
    intro hr hp ev hev
    rcases List.mem_cons.1 hev with rfl | hev
    · exact henter hb hr hp
    · exact ih (by simp) hb.hdr ev hev
  | noEnd hb h hneg ih =>
    intro hr hp ev hev
    rcases List.mem_cons.1 hev with rfl | hev
    · exact henter hb hr hp
    · rcases List.mem_append.1 hev with hev | hev
      · exact ih (by simp) hb.hdr ev hev
      · simp only [List.mem_singleton] at hev
        subst hev
        trivial
  | next hb h h' ih ih' =>
    intro hr hp ev hev
    rcases List.mem_cons.1 hev with rfl | hev
    · exact henter hb hr hp
    · rcases List.mem_append.1 hev with hev | hev
      · exact ih (by simp) hb.hdr ev hev
      · rcases List.mem_cons.1 hev with rfl | hev
        · trivial
        · exact ih' (hnext hb hr) hp ev hev
  | ret => intro _ _; simp
  | fail => intro _ _; simp
  | hang => intro _ _; simp
  | expand hn h h' ih ih' =>
    intro hp hb ev hev
    rcases List.mem_cons.1 hev with rfl | hev
    · exact ⟨hb, _, hn, rfl⟩
    · rcases List.mem_append.1 hev with hev | hev
      · exact ih (hchild hb hn) (by simp [hp]) ev hev
      · rcases List.mem_cons.1 hev with rfl | hev
        · trivial
        · exact ih' hp hb ev hev
  | expandErr hn h h' ih ih' =>
    intro hp hb ev hev
    rcases List.mem_cons.1 hev with rfl | hev
    · exact ⟨hb, _, hn, rfl⟩
    · rcases List.mem_append.1 hev with hev | hev
      · exact ih (hchild hb hn) (by simp [hp]) ev hev
      · rcases List.mem_cons.1 hev with rfl | hev
        · trivial
        · exact ih' hp hb ev hev
  | expandCut hn h ih =>
    intro hp hb ev hev
    rcases List.mem_cons.1 hev with rfl | hev
    · exact ⟨hb, _, hn, rfl⟩
    · exact ih (hchild hb hn) (by simp [hp]) ev hev

theorem tr_nested {r : Run} {L : List (Ev V)} {o : Out (List V)} (h : Tr m d r L o) :
    match r with
    | .row _ parent _ _ _ _ _ => ∃ rs, (o ≠ .hang → RowReturns rs o) ∧ ∀ (vs : List V) stack rest o',
        (o = .hang → rest = [] ∧ o' = .hang) →
        (o ≠ .hang → Nested o' (⟨parent, vs.map .ok ++ rs, none⟩ :: stack) rest) →
        Nested o' (⟨parent, vs.map .ok, none⟩ :: stack) (L ++ rest)
    | .body _ path bi => ∀ parent rs stack rest o',
        (o = .hang → rest = [] ∧ o' = .hang) →
        (o ≠ .hang → Nested o' (⟨parent, rs, some (path, bi)⟩ :: stack) rest) →
        Nested o' (⟨parent, rs, some (path, bi)⟩ :: stack) (L ++ rest) := by
  induction h with
  | fuel =>
    refine ⟨[], fun h => absurd rfl h, ?_⟩
    intro vs stack rest o' h1 _
    obtain ⟨rfl, rfl⟩ := h1 rfl
    rw [List.append_nil, Nested]
    exact .inl rfl
  | over h =>
    refine ⟨[], fun _ => ?_, ?_⟩
    · cases h <;> first | exact .inl ⟨[], rfl, .inl rfl⟩ | exact .inl ⟨[], rfl, .inr ⟨_, rfl⟩⟩
    · intro vs stack rest o' _ h2
      have := h2 (by cases h <;> simp)
      rw [List.append_nil] at this
      exact this
  | stop hb h ih =>
    rename_i e
    refine ⟨[.error e], fun _ => .inr ⟨[], e, rfl, rfl⟩, ?_⟩
    intro vs stack rest o' _ h2
    rw [List.cons_append]
    refine nested_enter ?_
    rw [List.append_assoc]
    refine ih _ _ _ _ _ (fun h => by cases h) (fun _ => ?_)
    rw [List.singleton_append, Nested]
    exact ⟨rfl, rfl, h2 (by simp)⟩
  | cut hb h ih =>
    refine ⟨[], fun h => absurd rfl h, ?_⟩
    intro vs stack rest o' h1 _
    rw [List.cons_append]
    exact nested_enter (ih _ _ _ _ _ h1 (fun h => absurd rfl h))
  | noEnd hb h hneg ih =>
    rename_i v
    refine ⟨[.ok v], fun _ => .inl ⟨[v], rfl, .inr ⟨_, rfl⟩⟩, ?_⟩
    intro vs stack rest o' _ h2
    rw [List.cons_append]
    refine nested_enter ?_
    rw [List.append_assoc]
    refine ih _ _ _ _ _ (fun h => by cases h) (fun _ => ?_)
    rw [List.singleton_append, Nested]
    exact ⟨rfl, rfl, h2 (by simp)⟩
  | next hb h h' ih ih' =>
    rename_i v _ o
    obtain ⟨rs, hrs, ih'⟩ := ih'
    refine ⟨.ok v :: rs, fun h => rowReturns_cons (hrs (fun e => h (consO_hang.2 e))), ?_⟩
    intro vs stack rest o' h1 h2
    rw [List.cons_append]
    refine nested_enter ?_
    rw [List.append_assoc]
    refine ih _ _ _ _ _ (fun h => by cases h) (fun _ => ?_)
    rw [List.cons_append, Nested]
    refine ⟨rfl, rfl, ?_⟩
    have e : vs.map Except.ok ++ [Except.ok v] = (vs ++ [v]).map (Except.ok (ε := Err)) := by simp
    rw [e]
    refine ih' _ _ _ _ (fun e => h1 (consO_hang.2 e)) (fun he => ?_)
    have := h2 (fun e => he (consO_hang.1 e))
    rw [← e, List.append_assoc]
    exact this
  | ret => intro parent rs stack rest o' _ h2; exact h2 (by simp)
  | fail => intro parent rs stack rest o' _ h2; exact h2 (by simp)
  | hang =>
    intro parent rs stack rest o' h1 _
    obtain ⟨rfl, rfl⟩ := h1 rfl
    rw [List.append_nil, Nested]
    exact .inl rfl
  | expand hn h h' ih ih' =>
    intro parent rs stack rest o' h1 h2
    obtain ⟨rs', hrs', ih⟩ := ih
    rw [List.cons_append, Nested]
    refine ⟨rfl, ?_⟩
    rw [List.append_assoc]
    refine ih [] _ _ _ (fun h => by cases h) (fun _ => ?_)
    rw [List.cons_append, Nested]
    exact ⟨rfl, rfl, hrs' (by simp), ih' _ _ _ _ _ h1 h2⟩
  | expandErr hn h h' ih ih' =>
    intro parent rs stack rest o' h1 h2
    obtain ⟨rs', hrs', ih⟩ := ih
    rw [List.cons_append, Nested]
    refine ⟨rfl, ?_⟩
    rw [List.append_assoc]
    refine ih [] _ _ _ (fun h => by cases h) (fun _ => ?_)
    rw [List.cons_append, Nested]
    exact ⟨rfl, rfl, hrs' (by simp), ih' _ _ _ _ _ h1 h2⟩
  | expandCut hn h ih =>
    intro parent rs stack rest o' h1 h2
    obtain ⟨rs', hrs', ih⟩ := ih
    rw [List.cons_append, Nested]
    refine ⟨rfl, ?_⟩
    exact ih [] _ _ _ h1 (fun h => absurd rfl h)

theorem hangs_trun (hd : Good m d) {bi : BoxInfo} (hb : HeaderAt d bi) (h : PayloadHangs m d bi) :
    AllOnesTrun d bi := by
  have hp := payload_post hd hb.inside
  unfold PayloadHangs at h
  generalize m.unmarshalAny d bi.type (sub64 bi.size bi.headerSize) bi.ctx (bi.offset + bi.headerSize) = x at h hp
  obtain ⟨o, p⟩ := x
  simp only at h
  subst h
  exact hp

/-- a traversal that is cut off has consumed eight bytes for each unit of fuel -/
theorem tr_fuel (hd : Good m d) {r : Run} {L : List (Ev V)} {o : Out (List V)} (h : Tr m d r L o) :
    match r with
    | .row f _ _ _ _ _ pos => o = .hang → OddCall d L ∨ f = 0 ∨ pos + 8 * f ≤ d.length
    | .body f _ bi => HeaderAt d bi → o = .hang →
        OddCall d L ∨ Odd d bi ∨ bi.offset + bi.headerSize + 8 * f ≤ d.length := by
  induction h with
  | fuel => intro _; exact .inr (.inl rfl)
  | over h => intro e; subst e; cases h
  | stop hb h ih => intro e; cases e
  | noEnd hb h ih => intro e; cases e
  | cut hb h ih =>
    intro _
    rcases ih hb.hdr rfl with h | h | h
    · exact .inl (h.mono fun x hx => List.mem_cons_of_mem _ hx)
    · exact .inl ⟨_, _, _, List.mem_cons_self, h⟩
    · have h1 := hb.offset
      have h2 := hb.hdr.hdr
      exact .inr (.inr (by omega))
  | next hb h h' ih ih' =>
    rename_i bi _ _ _ o
    intro e
    have eo : o = .hang := by
      cases o with
      | hang => rfl
      | _ => cases e
    have h1 := hb.offset
    have h2 := hb.hdr.hdr
    have h3 := hb.hdr.inside
    by_cases hreg : Regular bi
    · rcases ih' eo with h | h | h
      · exact .inl (h.mono fun x hx => by simp [hx])
      · exact .inr (.inr (by omega))
      · have h4 := hreg.1
        have h5 := hreg.2
        simp only [U64] at h
        exact .inr (.inr (by omega))
    · exact .inl ⟨_, _, _, List.mem_cons_self, .inl hreg⟩
  | ret => intro _ e; cases e
  | fail => intro _ e; cases e
  | hang h => intro hb _; exact .inr (.inl (.inr (hangs_trun hd hb h)))
  | expand hn h h' ih ih' =>
    intro hb e
    rcases ih' hb e with h | h
    · exact .inl (h.mono fun x hx => by simp [hx])
    · exact .inr h
  | expandErr hn h h' ih ih' =>
    intro hb e
    rcases ih' hb e with h | h
    · exact .inl (h.mono fun x hx => by simp [hx])
    · exact .inr h
  | expandCut hn h ih =>
    intro hb e
    have h1 := (payloadN_bound hd hb.inside hn).1
    rcases ih e with h | h | h
    · exact .inl (h.mono fun x hx => by simp [hx])
    · exact .inr (.inr (by omega))
    · exact .inr (.inr (by omega))

end Mp4.Reg
