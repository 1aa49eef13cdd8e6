import Verif.Props.Context

/-!
# C64: what a traversal that succeeds has seen

When `ReadBoxStructure` returns no error, the boxes it has visited at the top level follow each other from
the first byte of the file on, and behind the last one there is no further box header.  When `Expand`
returns no error, the boxes it has visited fill the box.  Both hold for every handler.

They do not say that the last box of the file is all there, nor that no byte is left over:
`cut_off_box_unnoticed` and `trailing_bytes_unnoticed` show files for which `ReadBoxStructure` succeeds nevertheless.
-/

namespace Mp4.Props

open Mp4

variable {S P V : Type} {d : Bytes}

/-- The boxes the handler is called for with a path of length `k`, in order. -/
def level (k : Nat) : List (Ev V) → List BoxInfo
  | [] => []
  | .enter _ path bi :: l => if path.length = k then bi :: level k l else level k l
  | _ :: l => level k l

/-- The boxes follow each other without gaps from `p` to `e`. -/
def Tiles : Nat → List BoxInfo → Nat → Prop
  | p, [], e => p = e
  | p, b :: l, e => b.offset = p ∧ Tiles (b.offset + b.size) l e

/-- The same in 64-bit arithmetic. -/
def Tiles64 : Nat → List BoxInfo → Nat → Prop
  | p, [], e => p = e
  | p, b :: l, e => b.offset = p ∧ Tiles64 (endOf b) l e

/-- All calls of the handler are for boxes below a box with a path of length `k`. -/
def Below (k : Nat) (l : List (Ev V)) : Prop :=
  ∀ parent path bi, Ev.enter parent path bi ∈ l → k < path.length

theorem level_append (k : Nat) (l l' : List (Ev V)) : level k (l ++ l') = level k l ++ level k l' := by
  induction l with
  | nil => rfl
  | cons e l ih =>
    cases e with
    | enter parent path bi =>
      simp only [List.cons_append, level]
      split <;> simp [ih]
    | _ => simpa only [List.cons_append, level] using ih

theorem level_below {k : Nat} {l : List (Ev V)} (h : Below k l) : level k l = [] := by
  induction l with
  | nil => rfl
  | cons e l ih =>
    have hl : Below k l := fun a b c hm => h a b c (List.mem_cons_of_mem _ hm)
    cases e with
    | enter parent path bi =>
      have := h parent path bi (List.mem_cons_self)
      simp only [level]
      rw [if_neg (by omega)]
      exact ih hl
    | _ => exact ih hl

theorem Below.mono {k k' : Nat} {l : List (Ev V)} (h : Below k l) (hk : k' ≤ k) : Below k' l :=
  fun a b c hm => Nat.lt_of_le_of_lt hk (h a b c hm)

theorem tr_below {r : Run} {L : List (Ev V)} {o : Out (List V)} (h : Tr d r L o) :
    match r with
    | .row _ _ _ _ path _ _ => Below path.length L
    | .body _ path _ => Below path.length L := by
  have hd : ∀ {path : List BoxType} {t : BoxType} {L : List (Ev V)}, Below (path ++ [t]).length L → Below path.length L :=
    fun h => h.mono (by simp)
  induction h with
  | fuel => intro a b c hm; cases hm
  | over => intro a b c hm; cases hm
  | stop hb h ih =>
    intro a b c hm
    simp only [List.mem_cons, List.mem_append, Ev.enter.injEq, List.not_mem_nil, or_false, reduceCtorEq] at hm
    rcases hm with ⟨-, rfl, -⟩ | hm
    · simp
    · exact hd ih a b c hm
  | cut hb h ih =>
    intro a b c hm
    simp only [List.mem_cons, Ev.enter.injEq] at hm
    rcases hm with ⟨-, rfl, -⟩ | hm
    · simp
    · exact hd ih a b c hm
  | noEnd hb h hneg ih =>
    intro a b c hm
    simp only [List.mem_cons, List.mem_append, Ev.enter.injEq, List.not_mem_nil, or_false, reduceCtorEq] at hm
    rcases hm with ⟨-, rfl, -⟩ | hm
    · simp
    · exact hd ih a b c hm
  | next hb h h' ih ih' =>
    intro a b c hm
    simp only [List.mem_cons, List.mem_append, Ev.enter.injEq, reduceCtorEq, false_or] at hm
    rcases hm with ⟨-, rfl, -⟩ | hm | hm
    · simp
    · exact hd ih a b c hm
    · exact ih' a b c hm
  | ret => intro a b c hm; cases hm
  | fail => intro a b c hm; cases hm
  | hang => intro a b c hm; cases hm
  | expand hn h h' ih ih' =>
    intro a b c hm
    simp only [List.mem_cons, List.mem_append, reduceCtorEq, false_or] at hm
    exact hm.elim (ih a b c) (ih' a b c)
  | expandErr hn h h' ih ih' =>
    intro a b c hm
    simp only [List.mem_cons, List.mem_append, reduceCtorEq, false_or] at hm
    exact hm.elim (ih a b c) (ih' a b c)
  | expandCut hn h ih =>
    intro a b c hm
    simp only [List.mem_cons, reduceCtorEq, false_or] at hm
    exact ih a b c hm

/-- the boxes of a row that ends well -/
theorem tr_row {r : Run} {L : List (Ev V)} {o : Out (List V)} (h : Tr d r L o) :
    match r with
    | .row _ _ total isRoot path ctx pos => total < U64 → ∀ vs, o = .ok vs → ∃ e,
        Tiles64 pos (level (path.length + 1) L) e ∧ vs.length = (level (path.length + 1) L).length ∧
        ((isRoot = true ∧ ∃ p, readBoxInfo d e = (.err .eof, p)) ∨
          (isRoot = false ∧ ∃ rest, total = ((level (path.length + 1) L).map BoxInfo.size).sum + rest ∧ rest < 8 ∧
            (rest = 0 ∨ ctx.isQuickTimeCompatible = true ∨ path = [])))
    | .body .. => True := by
  induction h with
  | fuel => intro _ vs hvs; cases hvs
  | over h =>
    intro _ vs hvs
    subst hvs
    cases h with
    | eof hr h => exact ⟨_, rfl, rfl, .inl ⟨hr, _, h⟩⟩
    | full hr h8 h0 => exact ⟨_, rfl, rfl, .inr ⟨hr, _, by simp [level], h8, h0.imp id .inl⟩⟩
  | next hb h h' ih ih' =>
    rename_i f parent total isRoot path ctx pos bi L v L' o
    intro ht vs hvs
    cases o with
    | ok vs' =>
      simp only [consO, Out.ok.injEq] at hvs
      subst hvs
      obtain ⟨e, h1, h2, h3⟩ := ih' (Nat.mod_lt _ (by decide)) vs' rfl
      have hlev : level (path.length + 1)
          (.enter parent (path ++ [bi.type]) bi :: (L ++ .leave parent (path ++ [bi.type]) bi (.ok v) :: L')) =
          bi :: level (path.length + 1) L' := by
        have hbl : Below (path.length + 1) L := by
          have := tr_below h
          simpa using this
        simp only [level, List.length_append, List.length_cons, List.length_nil, if_true, level_append, level_below hbl,
          List.nil_append, Nat.zero_add]
      rw [hlev]
      refine ⟨e, ⟨hb.offset, h1⟩, by simp [h2], ?_⟩
      rcases h3 with h3 | ⟨hr, rest, h4, h5, h6⟩
      · exact .inl h3
      · right
        refine ⟨hr, rest, ?_, h5, ?_⟩
        · have hf := hb.fit
          rw [hr] at hf
          simp only [Bool.false_eq_true, false_or] at hf
          have hlt := hb.hdr.lt
          have hpos := hb.hdr.pos
          simp only [List.map_cons, List.sum_cons]
          simp only [sub64, U64] at *
          omega
        · rcases h6 with h6 | h6 | h6
          · exact .inl h6
          · rw [nextCtx_qt, Bool.or_eq_true] at h6
            rcases h6 with h6 | h6
            · exact .inr (.inl h6)
            · rcases hb.own.qt.1 h6 with h7 | h7
              · exact .inr (.inl h7)
              · exact .inr (.inr h7.1)
          · exact .inr (.inr h6)
    | err e => cases hvs
    | panic => cases hvs
    | hang => cases hvs
  | ret => trivial
  | fail => trivial
  | hang => trivial
  | expand => trivial
  | expandErr => trivial
  | expandCut => trivial
  | _ => intro _ vs hvs; cases hvs

theorem tiles_of_tiles64 {p e : Nat} {l : List BoxInfo} (h : Tiles64 p l e) (hs : p + (l.map BoxInfo.size).sum < 2 ^ 64) :
    Tiles p l e ∧ e = p + (l.map BoxInfo.size).sum := by
  induction l generalizing p with
  | nil => exact ⟨h, by simpa using h.symm⟩
  | cons b l ih =>
    obtain ⟨h1, h2⟩ := h
    simp only [List.map_cons, List.sum_cons] at hs ⊢
    have he : endOf b = b.offset + b.size := Nat.mod_eq_of_lt (by omega)
    rw [he] at h2
    obtain ⟨h3, h4⟩ := ih h2 (by omega)
    exact ⟨⟨h1, h3⟩, by omega⟩

/-- An `Expand` that has returned `vs`: `start` is where the children begin and `mid` is what happened meanwhile. -/
structure Filled (bi : BoxInfo) (path : List BoxType) (start : Nat) (mid : List (Ev V)) (vs : List V) : Prop where
  /-- no other box is visited meanwhile -/
  below : Below path.length mid
  /-- one value for each child -/
  values : vs.length = (level (path.length + 1) mid).length
  /-- the children begin behind the header, follow each other, and end at the end of the box -/
  fill : Regular bi → bi.offset + bi.headerSize ≤ start ∧ ∃ e, Tiles start (level (path.length + 1) mid) e ∧
    e ≤ bi.offset + bi.size ∧ bi.offset + bi.size < e + 8 ∧
    (bi.ctx.isQuickTimeCompatible = false → e = bi.offset + bi.size)

/-- every `Expand` that has returned values is `Filled` -/
def AllFilled (l : List (Ev V)) : Prop :=
  ∀ before after path bi vs, l = before ++ .closeBox path bi (.ok vs) :: after →
    ∃ before' start mid, before = before' ++ .openBox path bi start :: mid ∧ Filled bi path start mid vs

theorem AllFilled.append {l l' : List (Ev V)} (h : AllFilled l) (h' : AllFilled l') : AllFilled (l ++ l') := by
  intro before after path bi vs he
  rcases List.append_eq_append_iff.1 he with ⟨m, h1, h2⟩ | ⟨m, h1, h2⟩
  · obtain ⟨b', st, mid, h3, h4⟩ := h' m after path bi vs h2
    exact ⟨l ++ b', st, mid, by rw [h1, h3, List.append_assoc], h4⟩
  · cases m with
    | nil =>
      obtain ⟨b', st, mid, h3, h4⟩ := h' [] after path bi vs (by simpa using h2.symm)
      simp at h3
    | cons x m =>
      simp only [List.cons_append, List.cons.injEq] at h2
      obtain ⟨rfl, -⟩ := h2
      exact h before m path bi vs h1

theorem AllFilled.one {e : Ev V} (h : ∀ path bi vs, e ≠ .closeBox path bi (.ok vs)) : AllFilled [e] := by
  intro before after path bi vs he
  cases before with
  | nil =>
    simp only [List.nil_append, List.cons.injEq] at he
    exact absurd he.1 (h _ _ _)
  | cons x l => simp at he

theorem AllFilled.nil : AllFilled ([] : List (Ev V)) := by
  intro before after path bi vs he
  simp at he

theorem AllFilled.cons {e : Ev V} {l : List (Ev V)} (h : ∀ path bi vs, e ≠ .closeBox path bi (.ok vs)) (hl : AllFilled l) :
    AllFilled (e :: l) := (AllFilled.one h).append hl

theorem AllFilled.bracket {l : List (Ev V)} {path : List BoxType} {bi : BoxInfo} {start : Nat} {vs : List V} (hl : AllFilled l)
    (hf : Filled bi path start l vs) : AllFilled (.openBox path bi start :: (l ++ [.closeBox path bi (.ok vs)])) := by
  intro before after path' bi' vs' he
  have he' : (.openBox path bi start :: l) ++ [Ev.closeBox path bi (.ok vs)] = before ++ .closeBox path' bi' (.ok vs') :: after := he
  rcases List.append_eq_append_iff.1 he' with ⟨m, h1, h2⟩ | ⟨m, h1, h2⟩
  · cases m with
    | nil =>
      simp only [List.nil_append, List.cons.injEq, Ev.closeBox.injEq, Except.ok.injEq] at h2
      obtain ⟨⟨rfl, rfl, rfl⟩, -⟩ := h2
      exact ⟨[], start, l, by simpa using h1, hf⟩
    | cons x m => simp at h2
  · cases m with
    | nil =>
      simp only [List.nil_append, List.cons.injEq, Ev.closeBox.injEq, Except.ok.injEq] at h2
      obtain ⟨⟨rfl, rfl, rfl⟩, -⟩ := h2
      exact ⟨[], start, l, by simpa using h1.symm, hf⟩
    | cons x m =>
      simp only [List.cons_append, List.cons.injEq] at h2
      obtain ⟨rfl, -⟩ := h2
      exact (hl.cons (e := .openBox path bi start) (by simp)) before m path' bi' vs' h1

theorem tr_filled (hd : d.length ≤ maxAlloc) {r : Run} {L : List (Ev V)} {o : Out (List V)} (h : Tr d r L o) :
    (match r with
     | .row .. => True
     | .body _ path bi => path ≠ [] ∧ HeaderAt d bi) → AllFilled L := by
  have hbox : ∀ {total isRoot path ctx pos bi}, BoxAt d total isRoot path ctx pos bi → path ++ [bi.type] ≠ [] ∧ HeaderAt d bi :=
    fun hb => ⟨by simp, hb.hdr⟩
  induction h with
  | fuel => exact fun _ => .nil
  | over => exact fun _ => .nil
  | stop hb h ih => exact fun _ => .cons (by simp) ((ih (hbox hb)).append (.one (by simp)))
  | cut hb h ih => exact fun _ => .cons (by simp) (ih (hbox hb))
  | noEnd hb h hneg ih => exact fun _ => .cons (by simp) ((ih (hbox hb)).append (.one (by simp)))
  | next hb h h' ih ih' => exact fun _ => .cons (by simp) ((ih (hbox hb)).append (.cons (by simp) (ih' trivial)))
  | ret => exact fun _ => .nil
  | fail => exact fun _ => .nil
  | hang => exact fun _ => .nil
  | expand hn h h' ih ih' =>
    rename_i f path bi n L vs M o
    intro hb
    have hfill : Filled bi path (bi.offset + bi.headerSize + n) L vs := by
      obtain ⟨e, h1, h2, h3⟩ := tr_row h (Nat.mod_lt _ (by decide)) vs rfl
      refine ⟨tr_below h, h2, fun hreg => ⟨by omega, ?_⟩⟩
      rcases h3 with ⟨h3, -⟩ | ⟨-, rest, h4, h5, h6⟩
      · cases h3
      · have hn1 := payloadN_bound hd hb.2.inside hn
        have hr1 := hreg.1
        have hr2 := hreg.2
        have hlt := hb.2.lt
        have hin := hb.2.inside
        have htot : sub64 (add64 bi.offset bi.size) (bi.offset + bi.headerSize + n) + (bi.offset + bi.headerSize + n) =
            bi.offset + bi.size := by
          simp only [sub64, add64, U64, maxAlloc] at *
          omega
        obtain ⟨h7, h8⟩ := tiles_of_tiles64 h1 (by omega)
        refine ⟨e, h7, by omega, by omega, fun hq => ?_⟩
        rcases h6 with h6 | h6 | h6
        · omega
        · rw [childCtx_qt, hq] at h6
          cases h6
        · exact absurd h6 hb.1
    have := (AllFilled.bracket (ih trivial) hfill).append (ih' hb)
    simpa using this
  | expandErr hn h h' ih ih' => exact fun hb => .cons (by simp) ((ih trivial).append (.cons (by simp) (ih' hb)))
  | expandCut hn h ih => exact fun _ => .cons (by simp) (ih trivial)

/-- when there is no header -/
theorem isoHeader_truncated {l : Bytes} (h : isoHeader l = .truncated) : l.length < 8 ∨ l.length < 16 ∧ be (l.take 4) = 1 := by
  unfold isoHeader at h
  split at h
  · next s0 s1 s2 s3 t0 t1 t2 t3 rest =>
    simp only at h
    split at h
    · cases h
    · split at h
      · next h1 =>
        unfold isoLarge at h
        split at h
        · split at h <;> cases h
        · next hne =>
          right
          refine ⟨?_, h1⟩
          match rest, hne with
          | [], _ | [_], _ | [_, _], _ | [_, _, _], _ | [_, _, _, _], _ | [_, _, _, _, _], _ | [_, _, _, _, _, _], _
          | [_, _, _, _, _, _, _], _ => simp
          | l0 :: l1 :: l2 :: l3 :: l4 :: l5 :: l6 :: l7 :: r, hne => exact absurd rfl (hne l0 l1 l2 l3 l4 l5 l6 l7 r)
      · cases h
  · next hne =>
    left
    match l, hne with
    | [], _ | [_], _ | [_, _], _ | [_, _, _], _ | [_, _, _, _], _ | [_, _, _, _, _], _ | [_, _, _, _, _, _], _
    | [_, _, _, _, _, _, _], _ => simp
    | l0 :: l1 :: l2 :: l3 :: l4 :: l5 :: l6 :: l7 :: r, hne => exact absurd rfl (hne l0 l1 l2 l3 l4 l5 l6 l7 r)

/-- **C64** (partial) — When `ReadBoxStructure` succeeds, the boxes it has called the handler for at the top level follow each
other without gaps from the first byte of the file on, each beginning where the one before ends according to its header; where
the last one ends there is no further header: fewer than 8 bytes are left, or fewer than 16 and they begin with the 32-bit size 1.
There is one value for each of the boxes.
Missing: that the last box ends in the file (`cut_off_box_unnoticed`), that no byte is left (`trailing_bytes_unnoticed`). -/
theorem whole_file_seen_partial (hd : d.length ≤ 2 ^ 48) (h : Handler S P V) (fuel : Nat) (p : P) (s : S) (pos : Nat) {vs : List V}
    (hok : (traverse d h fuel p s pos).1 = .ok vs) :
    ∃ e, Tiles64 0 (level 1 (traverse d h fuel p s pos).2.log) e ∧
      vs.length = (level 1 (traverse d h fuel p s pos).2.log).length ∧
      (d.length < e + 8 ∨ d.length < e + 16 ∧ be ((d.drop e).take 4) = 1) := by
  obtain ⟨e, h1, h2, h3⟩ := tr_row (traverse_tr hd h fuel p s pos) (by decide) vs hok
  refine ⟨e, h1, h2, ?_⟩
  rcases h3 with ⟨-, q, h3⟩ | ⟨h3, -⟩
  · have hiso := readBoxInfo_iso d e (by omega)
    cases hh : isoHeader (d.drop e) with
    | truncated =>
      have := isoHeader_truncated hh
      rw [List.length_drop] at this
      omega
    | box a b c x =>
      rw [hh] at hiso
      simp only [h3, Prod.mk.injEq, reduceCtorEq, false_and] at hiso
    | zeroSize =>
      rw [hh] at hiso
      obtain ⟨q', hq⟩ := hiso
      rw [h3] at hq
      cases hq
  · cases h3

theorem tiles_of_regular {p e : Nat} {l : List BoxInfo} (h : Tiles64 p l e) (hs : ∀ b ∈ l, b.offset + b.size < 2 ^ 64) :
    Tiles p l e := by
  induction l generalizing p with
  | nil => exact h
  | cons b l ih =>
    have he : endOf b = b.offset + b.size := Nat.mod_eq_of_lt (hs b (by simp))
    refine ⟨h.1, ?_⟩
    rw [← he]
    exact ih h.2 fun b' hb => hs b' (List.mem_cons_of_mem _ hb)

/-- the sizes of boxes that follow each other -/
theorem tiles_sum {p e : Nat} {l : List BoxInfo} (h : Tiles p l e) : e = p + (l.map BoxInfo.size).sum := by
  induction l generalizing p with
  | nil => simpa using h.symm
  | cons b l ih =>
    have := ih h.2
    have := h.1
    simp only [List.map_cons, List.sum_cons]
    omega

/-- **C64** (partial) — If no size of a top-level box is so large that its end is not a 64-bit number, then the sizes of the
top-level boxes of a file that is traversed with success add up to the size of the file, up to 15 bytes, or to more.
Missing: as for `whole_file_seen_partial`. -/
theorem sizes_cover_file_partial (hd : d.length ≤ 2 ^ 48) (h : Handler S P V) (fuel : Nat) (p : P) (s : S) (pos : Nat)
    {vs : List V} (hok : (traverse d h fuel p s pos).1 = .ok vs)
    (hs : ∀ b ∈ level 1 (traverse d h fuel p s pos).2.log, b.offset + b.size < 2 ^ 64) :
    d.length ≤ ((level 1 (traverse d h fuel p s pos).2.log).map BoxInfo.size).sum + 15 := by
  obtain ⟨e, h1, -, h2⟩ := whole_file_seen_partial hd h fuel p s pos hok
  have := tiles_sum (tiles_of_regular h1 hs)
  omega

/-- **C64** — When `Expand` returns without an error, the handler has meanwhile been called, at the level below, for boxes that
follow each other from behind the payload of the box to its end; up to seven bytes can be left over only in a file that is
QuickTime compatible.  There is one value for each of them.  This holds for every call of `Expand` of a traversal, whether it
succeeds or not. -/
theorem whole_box_seen (hd : d.length ≤ 2 ^ 48) (h : Handler S P V) (fuel : Nat) (p : P) (s : S) (pos : Nat)
    {before after : List (Ev V)} {path : List BoxType} {bi : BoxInfo} {vs : List V}
    (hlog : (traverse d h fuel p s pos).2.log = before ++ .closeBox path bi (.ok vs) :: after) :
    ∃ before' start mid, before = before' ++ .openBox path bi start :: mid ∧ Filled bi path start mid vs :=
  tr_filled hd (traverse_tr hd h fuel p s pos) trivial _ _ _ _ _ hlog

/-- A `mdat` that announces 1000 bytes; there are 10. -/
def cutOffFile : Bytes := [0, 0, 3, 232, 0x6d, 0x64, 0x61, 0x74, 1, 2]

/-- A box with seven bytes behind it. -/
def trailingFile : Bytes := [0, 0, 0, 8, 0x66, 0x72, 0x65, 0x65, 1, 2, 3, 4, 5, 6, 7]

/-- A box with a header with a 64-bit size behind it, of which the last byte is missing. -/
def trailingFile16 : Bytes := [0, 0, 0, 8, 0x66, 0x72, 0x65, 0x65, 0, 0, 0, 1, 0x6d, 0x64, 0x61, 0x74, 0, 0, 0, 0, 0, 0, 0]

/-- offsets and sizes of the top-level boxes, and whether the traversal succeeds -/
def topLevel (h : Handler Unit Unit Unit) (d : Bytes) : Bool × List (Nat × Nat) :=
  match traverse d h 20 () () with
  | (.ok _, st) => (true, (level 1 st.log).map fun b => (b.offset, b.size))
  | (_, st) => (false, (level 1 st.log).map fun b => (b.offset, b.size))

/-- C64, finding: `ReadBoxStructure` succeeds though the last box is cut off, if the handler does not read its payload. -/
theorem cut_off_box_unnoticed : topLevel (fun _ => .ret ()) cutOffFile = (true, [(0, 1000)]) ∧ cutOffFile.length = 10 := by decide +kernel

/-- C64, finding: `ReadBoxStructure` succeeds though seven, or fifteen, bytes are left behind the last box. -/
theorem trailing_bytes_unnoticed :
    topLevel expandSupported trailingFile = (true, [(0, 8)]) ∧ trailingFile.length = 15 ∧
    topLevel expandSupported trailingFile16 = (true, [(0, 8)]) ∧ trailingFile16.length = 23 := by decide +kernel

/-- With eight bytes that are no header behind the box the traversal fails (here: a box of size zero with a 64-bit size). -/
example : topLevel expandSupported (trailingFile16 ++ [0]) = (false, [(0, 8)]) := by decide +kernel

/-- the children of the `Expand`s that have returned, by box -/
def filled : List (Ev V) → List (Nat × Nat)
  | [] => []
  | .closeBox _ bi (.ok vs) :: l => (bi.offset, vs.length) :: filled l
  | _ :: l => filled l

/-- The hypotheses are met by a file of three top-level boxes, one of them with five boxes in each other. -/
example : (match traverse itemFile expandSupported 20 () () with
    | (.ok vs, st) => (vs.length, (level 1 st.log).map (fun b : BoxInfo => (b.offset, b.size)), filled st.log)
    | _ => (0, [], [])) =
    (3, [(0, 24), (24, 62), (86, 8)], [(0, 0), (68, 0), (60, 1), (52, 1), (40, 1), (32, 1), (24, 1), (86, 0)]) := by
  decide +kernel

/-- `ftyp` with the given brand, `moov` { `free`, four more bytes } -/
def slackFile (brand : Bytes) : Bytes := [0, 0, 0, 16, 0x66, 0x74, 0x79, 0x70] ++ brand ++ [0, 0, 0, 0] ++
  [0, 0, 0, 20, 0x6d, 0x6f, 0x6f, 0x76, 0, 0, 0, 8, 0x66, 0x72, 0x65, 0x65, 0, 0, 0, 0]

/-- Bytes left over in a box are an error, other than in a file that is QuickTime compatible (where the brand is `qt  ` and it is
among the compatible brands). -/
example : topLevel expandSupported (slackFile [0x69, 0x73, 0x6f, 0x6d]) = (false, [(0, 16), (16, 20)]) ∧
    topLevel expandSupported ([0, 0, 0, 20, 0x66, 0x74, 0x79, 0x70, 0x71, 0x74, 0x20, 0x20, 0, 0, 0, 0, 0x71, 0x74, 0x20, 0x20] ++
      (slackFile []).drop 12) = (true, [(0, 20), (20, 20)]) := by decide +kernel

end Mp4.Props
