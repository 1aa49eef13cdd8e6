import Verif.Lemmas.Traverse

/-!
# C21–C24: what every traversal does, whatever the handler does

`traverse d h fuel p s` is `ReadBoxStructure` on the file `d` with the handler `h`, parameters `p` and
handler variables `s`; the record of the calls of the handler is `.2.log`.
-/

namespace Mp4.Props

open Mp4

/-- A run of `ReadBoxStructure`; the reader may be anywhere before (`pos`). -/
def traverse {S P V : Type} (d : Bytes) (h : Handler S P V) (fuel : Nat) (p : P) (s : S) (pos : Nat := 0) :
    Out (List V) × TSt S V :=
  readBoxStructure BoxMap.std d h fuel p ⟨pos, s, []⟩

variable {S P V : Type} {d : Bytes}

theorem traverse_tr (hd : d.length ≤ 2 ^ 48) (h : Handler S P V) (fuel : Nat) (p : P) (s : S) (pos : Nat) :
    Tr d (.row fuel none 0 true [] {} 0) (traverse d h fuel p s pos).2.log (traverse d h fuel p s pos).1 := by
  obtain ⟨L, hL, hT⟩ := readBoxStructure_tr (show d.length ≤ maxAlloc from hd) h fuel p ⟨pos, s, []⟩
  simp only [List.nil_append] at hL
  rw [← hL] at hT
  exact hT

/-- C47: traversal does not panic. -/
theorem traversal_never_panics (hd : d.length ≤ 2 ^ 48) (h : Handler S P V) (fuel : Nat) (p : P) (s : S) (pos : Nat) :
    (traverse d h fuel p s pos).1 ≠ .panic := tr_no_panic (traverse_tr hd h fuel p s pos)

/-! ## C21 -/

/-- Right behind the box, in the 64-bit arithmetic of the library. -/
def endOf (bi : BoxInfo) : Nat := (bi.offset + bi.size) % 2 ^ 64

/-- How many bytes of the box `p` are left from `pos` on, in 64-bit arithmetic. -/
def room (p : BoxInfo) (pos : Nat) : Nat := (p.offset + p.size + (2 ^ 64 - pos)) % 2 ^ 64

/-- No further box can be visited at `pos`: the position cannot be reached, the parent is used up, there is no box header,
the box is larger than what is left of the parent, or it is an `ftyp` (of the file) or `keys` box that cannot be decoded. -/
def NoBox (d : Bytes) (parent : Option BoxInfo) (pos : Nat) : Prop :=
  2 ^ 63 ≤ pos ∨ (∃ p, parent = some p ∧ room p pos < 8) ∨
  (∀ s h t x, isoHeader (d.drop pos) ≠ .box s h t x) ∨
  ∃ s h t x, isoHeader (d.drop pos) = .box s h t x ∧
    ((∃ p, parent = some p ∧ room p pos < s) ∨
     ((parent = none ∧ t = tFtyp ∨ t = tKeys) ∧
      ∃ ctx e, (BoxMap.std.unmarshalAny d t (sub64 s h) ctx (pos + h)).1 = .err e))

/-- The next event is the call for the box at `pos`, or there is none in this row because there is no such box (or the run
is cut off, `hung`). -/
def NextIsAt (d : Bytes) (hung : Prop) (parent : Option BoxInfo) (path : List BoxType) (pos : Nat)
    (next : Option (Ev V)) : Prop :=
  (∃ bi, next = some (.enter parent (path ++ [bi.type]) bi) ∧ bi.offset = pos) ∨
  (next = none ∧ hung) ∨
  ((next = none ∨ ∃ p r, parent = some p ∧ next = some (.closeBox path p r)) ∧ NoBox d parent pos)

/-- What may follow an event. -/
def MayFollow (d : Bytes) (hung : Prop) : Ev V → Option (Ev V) → Prop
  | .leave parent path bi (.ok _), next => NextIsAt d hung parent path.dropLast (endOf bi) next
  | .openBox path bi start, next => NextIsAt d hung (some bi) path start next
  | _, _ => True

/-- every event is followed as allowed; `t` comes after the last one -/
def FollowsT (R : Ev V → Option (Ev V) → Prop) : List (Ev V) → Option (Ev V) → Prop
  | [], _ => True
  | x :: l, t => R x (l.head?.or t) ∧ FollowsT R l t

theorem followsT_append {R : Ev V → Option (Ev V) → Prop} : ∀ (A B : List (Ev V)) (t : Option (Ev V)),
    FollowsT R (A ++ B) t ↔ FollowsT R A (B.head?.or t) ∧ FollowsT R B t
  | [], B, t => by simp [FollowsT]
  | x :: A, B, t => by
    simp only [List.cons_append, FollowsT, followsT_append A B t]
    rw [List.head?_append, Option.or_assoc, and_assoc]

theorem followsT_split {R : Ev V → Option (Ev V) → Prop} {A B : List (Ev V)} {x : Ev V} {t : Option (Ev V)}
    (h : FollowsT R (A ++ x :: B) t) : R x (B.head?.or t) := ((followsT_append A (x :: B) t).1 h).2.1

theorem readBoxInfo_err_iso (hd : d.length ≤ maxAlloc) {pos p : Nat} {e : Err} (h : readBoxInfo d pos = (.err e, p)) :
    ∀ s h t x, isoHeader (d.drop pos) ≠ .box s h t x := by
  rcases readBoxInfo_post hd pos with ⟨bi, h1, _⟩ | ⟨_, _, _, h2⟩
  · rw [h] at h1; cases h1
  · exact h2

theorem readBoxInfo_ok_iso (hd : d.length ≤ maxAlloc) {pos p : Nat} {bi : BoxInfo} (h : readBoxInfo d pos = (.ok bi, p)) :
    isoHeader (d.drop pos) = .box bi.size bi.headerSize bi.type bi.extendToEOF := by
  rcases readBoxInfo_post hd pos with ⟨bi', h1, h2⟩ | ⟨_, _, h1, h2⟩
  · rw [h] at h1; cases h1; exact h2.2.2.2.2.2.2
  · rw [h] at h1; cases h1

/-- the row belongs to its parent -/
def RowOf (parent : Option BoxInfo) (total : Nat) (isRoot : Bool) (path : List BoxType) (pos : Nat) : Prop :=
  (isRoot = true ∧ parent = none ∧ path = []) ∨
  (isRoot = false ∧ path ≠ [] ∧ ∃ p, parent = some p ∧ total = room p pos ∧ pos < 2 ^ 64)

theorem rowEnd_noBox (hd : d.length ≤ maxAlloc) {parent : Option BoxInfo} {total : Nat} {isRoot : Bool}
    {path : List BoxType} {ctx : Ctx} {pos : Nat} {o : Out (List V)} (hr : RowOf parent total isRoot path pos)
    (h : RowEnd d total isRoot path ctx pos o) : NoBox d parent pos := by
  rcases hr with ⟨rfl, rfl, rfl⟩ | ⟨rfl, hp, p, rfl, rfl, hpos⟩
  · cases h with
    | eof hr h => exact .inr (.inr (.inl (readBoxInfo_err_iso hd h)))
    | header hr h => exact .inr (.inr (.inl (readBoxInfo_err_iso hd h)))
    | payload hr h hs ht hb =>
      exact .inr (.inr (.inr ⟨_, _, _, _, readBoxInfo_ok_iso hd h, .inr ⟨by
        rcases ht with h | h
        · exact .inl ⟨rfl, h.2⟩
        · exact .inr h, _, _, hb⟩⟩))
    | large hr => cases hr
    | short hr => cases hr
    | full hr => cases hr
  · cases h with
    | eof hr h => cases hr
    | header hr h => exact .inr (.inr (.inl (readBoxInfo_err_iso hd h)))
    | payload hr h hs ht hb =>
      exact .inr (.inr (.inr ⟨_, _, _, _, readBoxInfo_ok_iso hd h, .inr ⟨by
        rcases ht with h | h
        · exact absurd h.1 hp
        · exact .inr h, _, _, hb⟩⟩))
    | large hr h8 h hs => exact .inr (.inr (.inr ⟨_, _, _, _, readBoxInfo_ok_iso hd h, .inl ⟨p, rfl, hs⟩⟩))
    | short hr h8 => exact .inr (.inl ⟨p, rfl, h8⟩)
    | full hr h8 => exact .inr (.inl ⟨p, rfl, h8⟩)

theorem rowOf_next {parent : Option BoxInfo} {total : Nat} {isRoot : Bool} {path : List BoxType} {ctx : Ctx} {pos : Nat}
    {bi : BoxInfo} (hr : RowOf parent total isRoot path pos) (hb : BoxAt d total isRoot path ctx pos bi) :
    RowOf parent (sub64 total bi.size) isRoot path ((bi.offset + bi.size) % U64) := by
  rcases hr with ⟨rfl, rfl, rfl⟩ | ⟨rfl, hp, p, rfl, rfl, hpos⟩
  · exact .inl ⟨rfl, rfl, rfl⟩
  · right
    refine ⟨rfl, hp, p, rfl, ?_, by simp only [U64]; omega⟩
    have h1 := hb.offset
    have h2 := hb.hdr.lt
    have h3 := hb.fit
    simp only [Bool.false_eq_true, false_or] at h3
    unfold sub64 room at *
    simp only [U64] at *
    omega

theorem rowOf_children {path : List BoxType} {bi : BoxInfo} {n : Nat} (hp : path ≠ []) (hd : d.length ≤ maxAlloc)
    (hn : bi.offset + bi.headerSize + n ≤ d.length) :
    RowOf (some bi) (sub64 (add64 bi.offset bi.size) (bi.offset + bi.headerSize + n)) false path
      (bi.offset + bi.headerSize + n) := by
  right
  refine ⟨rfl, hp, bi, rfl, ?_, by simp only [maxAlloc] at hd; omega⟩
  unfold sub64 add64 room
  simp only [U64, maxAlloc] at *
  omega

theorem tr_follows (hd : d.length ≤ maxAlloc) (hung : Prop) {r : Run} {L : List (Ev V)} {o : Out (List V)}
    (h : Tr d r L o) :
    match r with
    | .row _ parent total isRoot path _ pos => RowOf parent total isRoot path pos → (o = .hang → hung) →
        ∀ t, (t = none ∨ ∃ p r, parent = some p ∧ t = some (.closeBox path p r)) → (o = .hang → t = none) →
          FollowsT (MayFollow d hung) L t ∧ NextIsAt d hung parent path pos (L.head?.or t)
    | .body _ path bi => path ≠ [] → HeaderAt d bi → (o = .hang → hung) → ∀ t, (o = .hang → t = none) →
        FollowsT (MayFollow d hung) L t := by
  induction h with
  | fuel =>
    intro hr hh t ht ht'
    exact ⟨trivial, .inr (.inl ⟨ht' rfl, hh rfl⟩)⟩
  | over h =>
    intro hr hh t ht ht'
    exact ⟨trivial, .inr (.inr ⟨ht, rowEnd_noBox hd hr h⟩)⟩
  | stop hb h ih =>
    intro hr hh t ht ht'
    refine ⟨⟨trivial, ?_⟩, .inl ⟨_, rfl, hb.offset⟩⟩
    rw [followsT_append]
    exact ⟨ih (by simp) hb.hdr (by simp) _ (by simp), trivial, trivial⟩
  | cut hb h ih =>
    intro hr hh t ht ht'
    refine ⟨⟨trivial, ?_⟩, .inl ⟨_, rfl, hb.offset⟩⟩
    exact ih (by simp) hb.hdr hh _ ht'
  | noEnd hb h hneg ih =>
    intro hr hh t ht ht'
    refine ⟨⟨trivial, ?_⟩, .inl ⟨_, rfl, hb.offset⟩⟩
    rw [followsT_append]
    refine ⟨ih (by simp) hb.hdr (by simp) _ (by simp), ?_, trivial⟩
    simp only [MayFollow, List.dropLast_concat, List.head?_nil, Option.none_or]
    exact .inr (.inr ⟨ht, .inl hneg⟩)
  | next hb h h' ih ih' =>
    rename_i o
    intro hr hh t ht ht'
    refine ⟨⟨trivial, ?_⟩, .inl ⟨_, rfl, hb.offset⟩⟩
    rw [followsT_append]
    have hho : o = .hang → hung := fun e => hh (by rw [e]; rfl)
    have hto : o = .hang → t = none := fun e => ht' (by rw [e]; rfl)
    obtain ⟨h1, h2⟩ := ih' (rowOf_next hr hb) hho t ht hto
    refine ⟨ih (by simp) hb.hdr (by simp) _ (by simp), ?_, h1⟩
    simp only [MayFollow, List.dropLast_concat]
    exact h2
  | ret => intro _ _ _ _ _; trivial
  | fail => intro _ _ _ _ _; trivial
  | hang => intro _ _ _ _ _; trivial
  | expand hn h h' ih ih' =>
    intro hp hb hh t ht
    have hpn := (payloadN_bound hd hb.inside hn).1
    obtain ⟨h1, h2⟩ := ih (rowOf_children hp hd hpn) (by simp) (some (.closeBox _ _ _)) (.inr ⟨_, _, rfl, rfl⟩) (by simp)
    refine ⟨?_, ?_⟩
    · rw [List.head?_append, Option.or_assoc]
      exact h2
    · rw [followsT_append]
      exact ⟨h1, trivial, ih' hp hb hh t ht⟩
  | expandErr hn h h' ih ih' =>
    intro hp hb hh t ht
    have hpn := (payloadN_bound hd hb.inside hn).1
    obtain ⟨h1, h2⟩ := ih (rowOf_children hp hd hpn) (by simp) (some (.closeBox _ _ _)) (.inr ⟨_, _, rfl, rfl⟩) (by simp)
    refine ⟨?_, ?_⟩
    · rw [List.head?_append, Option.or_assoc]
      exact h2
    · rw [followsT_append]
      exact ⟨h1, trivial, ih' hp hb hh t ht⟩
  | expandCut hn h ih =>
    intro hp hb hh t ht
    have hpn := (payloadN_bound hd hb.inside hn).1
    obtain ⟨h1, h2⟩ := ih (rowOf_children hp hd hpn) hh t (.inl (ht rfl)) ht
    exact ⟨h2, h1⟩

/-- C21: when the handler has returned without error, whatever it did before, the next thing that happens is the
call for the box right behind (at offset + size) in the same parent, unless there is none: then the row is over. -/
theorem handler_cannot_derail (hd : d.length ≤ 2 ^ 48) (h : Handler S P V) (fuel : Nat) (p : P) (s : S) (pos : Nat)
    (A B : List (Ev V)) (parent : Option BoxInfo) (path : List BoxType) (bi : BoxInfo) (v : V)
    (hlog : (traverse d h fuel p s pos).2.log = A ++ .leave parent path bi (.ok v) :: B) :
    NextIsAt d ((traverse d h fuel p s pos).1 = .hang) parent path.dropLast (endOf bi) B.head? := by
  have hf := (tr_follows (show d.length ≤ maxAlloc from hd) ((traverse d h fuel p s pos).1 = .hang)
    (traverse_tr hd h fuel p s pos) (.inl ⟨rfl, rfl, rfl⟩) id none (.inl rfl) (fun _ => rfl)).1
  rw [hlog] at hf
  have := followsT_split hf
  rw [Option.or_none] at this
  exact this

/-- C21, the same for the first child: `Expand` continues with the box right behind the fields of the payload. -/
theorem expand_starts_at_children (hd : d.length ≤ 2 ^ 48) (h : Handler S P V) (fuel : Nat) (p : P) (s : S) (pos : Nat)
    (A B : List (Ev V)) (path : List BoxType) (bi : BoxInfo) (start : Nat)
    (hlog : (traverse d h fuel p s pos).2.log = A ++ .openBox path bi start :: B) :
    NextIsAt d ((traverse d h fuel p s pos).1 = .hang) (some bi) path start B.head? := by
  have hf := (tr_follows (show d.length ≤ maxAlloc from hd) ((traverse d h fuel p s pos).1 = .hang)
    (traverse_tr hd h fuel p s pos) (.inl ⟨rfl, rfl, rfl⟩) id none (.inl rfl) (fun _ => rfl)).1
  rw [hlog] at hf
  have := followsT_split hf
  rw [Option.or_none] at this
  exact this

/-! ## C22 -/

/-- The announced size covers at least the header, and the end of the box is a 64-bit number. -/
def Regular (bi : BoxInfo) : Prop := bi.headerSize ≤ bi.size ∧ bi.offset + bi.size < 2 ^ 64

/-- `c` lies within the bytes of `p` behind the header. -/
def Inside (p c : BoxInfo) : Prop := p.offset + p.headerSize ≤ c.offset ∧ c.offset + c.size ≤ p.offset + p.size

/-- facts about single events -/
def EvFact (d : Bytes) : Ev V → Prop
  | .enter parent path bi => HeaderAt d bi ∧ path.getLast? = some bi.type ∧ (parent = none ↔ path.length = 1) ∧
      ∀ p, parent = some p → Regular p → Inside p bi
  | .openBox _ bi start => HeaderAt d bi ∧ ∃ n, PayloadN d bi n ∧ start = bi.offset + bi.headerSize + n
  | _ => True

/-- the row lies in a regular parent -/
def RowIn (parent : Option BoxInfo) (isRoot : Bool) (total pos : Nat) : Prop :=
  ∀ p, parent = some p → Regular p → isRoot = false ∧ pos + total = p.offset + p.size ∧ p.offset + p.headerSize ≤ pos

theorem tr_facts (hd : d.length ≤ maxAlloc) {r : Run} {L : List (Ev V)} {o : Out (List V)} (h : Tr d r L o) :
    match r with
    | .row _ parent total isRoot path _ pos => RowIn parent isRoot total pos → (parent = none ↔ path = []) →
        ∀ ev ∈ L, EvFact d ev
    | .body _ path bi => path ≠ [] → HeaderAt d bi → ∀ ev ∈ L, EvFact d ev := by
  have henter : ∀ {total isRoot path ctx pos bi parent}, BoxAt d total isRoot path ctx pos bi →
      RowIn parent isRoot total pos → (parent = none ↔ path = []) →
      EvFact d (.enter parent (path ++ [bi.type]) bi : Ev V) := by
    intro total isRoot path ctx pos bi parent hb hr hp
    refine ⟨hb.hdr, by simp, by rw [hp]; simp, ?_⟩
    intro p hpp hreg
    obtain ⟨h1, h2, h3⟩ := hr p hpp hreg
    have h4 := hb.fit
    rw [h1] at h4
    simp only [Bool.false_eq_true, false_or] at h4
    have h5 := hb.offset
    unfold Inside
    omega
  have hnext : ∀ {total isRoot path ctx pos bi parent}, BoxAt d total isRoot path ctx pos bi →
      RowIn parent isRoot total pos → RowIn parent isRoot (sub64 total bi.size) ((bi.offset + bi.size) % U64) := by
    intro total isRoot path ctx pos bi parent hb hr p hpp hreg
    obtain ⟨h1, h2, h3⟩ := hr p hpp hreg
    have h4 := hb.fit
    rw [h1] at h4
    simp only [Bool.false_eq_true, false_or] at h4
    have h5 := hb.offset
    have h6 := hreg.2
    have h7 := hb.hdr.lt
    refine ⟨h1, ?_⟩
    unfold sub64
    simp only [U64] at *
    omega
  have hchild : ∀ {bi n}, HeaderAt d bi → PayloadN d bi n →
      RowIn (some bi) false (sub64 (add64 bi.offset bi.size) (bi.offset + bi.headerSize + n)) (bi.offset + bi.headerSize + n) := by
    intro bi n hb hn p hpp hreg
    cases hpp
    have h1 := payloadN_bound hd hb.inside hn
    have h2 := hreg.1
    have h3 := hreg.2
    have h4 := hb.inside
    refine ⟨rfl, ?_⟩
    unfold sub64 add64 at *
    simp only [U64, maxAlloc] at *
    omega
  induction h with
  | fuel => intro _ _; simp
  | over h => intro _ _; simp
  | stop hb h ih =>
    intro hr hp ev hev
    rcases List.mem_cons.1 hev with rfl | hev
    · exact henter hb hr hp
    · rcases List.mem_append.1 hev with hev | hev
      · exact ih (by simp) hb.hdr ev hev
      · simp only [List.mem_singleton] at hev
        subst hev
        trivial
  | cut hb h ih =>
    intro hr hp ev hev
    rcases List.mem_cons.1 hev with rfl | hev
    · exact henter hb hr hp
    · exact ih (by simp) hb.hdr ev hev
  | noEnd hb h hneg ih =>
    intro hr hp ev hev
    rcases List.mem_cons.1 hev with rfl | hev
    · exact henter hb hr hp
    · rcases List.mem_append.1 hev with hev | hev
      · exact ih (by simp) hb.hdr ev hev
      · simp only [List.mem_singleton] at hev
        subst hev
        trivial
  | next hb h h' ih ih' =>
    intro hr hp ev hev
    rcases List.mem_cons.1 hev with rfl | hev
    · exact henter hb hr hp
    · rcases List.mem_append.1 hev with hev | hev
      · exact ih (by simp) hb.hdr ev hev
      · rcases List.mem_cons.1 hev with rfl | hev
        · trivial
        · exact ih' (hnext hb hr) hp ev hev
  | ret => intro _ _; simp
  | fail => intro _ _; simp
  | hang => intro _ _; simp
  | expand hn h h' ih ih' =>
    intro hp hb ev hev
    rcases List.mem_cons.1 hev with rfl | hev
    · exact ⟨hb, _, hn, rfl⟩
    · rcases List.mem_append.1 hev with hev | hev
      · exact ih (hchild hb hn) (by simp [hp]) ev hev
      · rcases List.mem_cons.1 hev with rfl | hev
        · trivial
        · exact ih' hp hb ev hev
  | expandErr hn h h' ih ih' =>
    intro hp hb ev hev
    rcases List.mem_cons.1 hev with rfl | hev
    · exact ⟨hb, _, hn, rfl⟩
    · rcases List.mem_append.1 hev with hev | hev
      · exact ih (hchild hb hn) (by simp [hp]) ev hev
      · rcases List.mem_cons.1 hev with rfl | hev
        · trivial
        · exact ih' hp hb ev hev
  | expandCut hn h ih =>
    intro hp hb ev hev
    rcases List.mem_cons.1 hev with rfl | hev
    · exact ⟨hb, _, hn, rfl⟩
    · exact ih (hchild hb hn) (by simp [hp]) ev hev

theorem traverse_facts (hd : d.length ≤ 2 ^ 48) (h : Handler S P V) (fuel : Nat) (p : P) (s : S) (pos : Nat) :
    ∀ ev ∈ (traverse d h fuel p s pos).2.log, EvFact d ev :=
  tr_facts (show d.length ≤ maxAlloc from hd) (traverse_tr hd h fuel p s pos) (by intro p hp; cases hp) (by simp)

/-- C22 (partial): every box passed to the handler from `Expand` of a box whose size covers its header lies within
the bytes of that box.  Missing: boxes whose announced size is smaller than the header (or runs past 2^64), for which it is
false (`children_outside_parent`). -/
theorem children_inside_partial (hd : d.length ≤ 2 ^ 48) (h : Handler S P V) (fuel : Nat) (p : P) (s : S) (pos : Nat)
    (parent : BoxInfo) (path : List BoxType) (bi : BoxInfo)
    (hev : .enter (some parent) path bi ∈ (traverse d h fuel p s pos).2.log) (hr : Regular parent) : Inside parent bi :=
  (traverse_facts hd h fuel p s pos _ hev).2.2.2 parent rfl hr

/-- Every box passed to the handler is the box whose header is at its offset (ISO/IEC 14496-12 §4.2), and its type is the
last item of the path. -/
theorem visited_box_is_real (hd : d.length ≤ 2 ^ 48) (h : Handler S P V) (fuel : Nat) (p : P) (s : S) (pos : Nat)
    (parent : Option BoxInfo) (path : List BoxType) (bi : BoxInfo)
    (hev : .enter parent path bi ∈ (traverse d h fuel p s pos).2.log) :
    isoHeader (d.drop bi.offset) = .box bi.size bi.headerSize bi.type bi.extendToEOF ∧
    path.getLast? = some bi.type ∧ (parent = none ↔ path.length = 1) :=
  have h := traverse_facts hd h fuel p s pos _ hev
  ⟨h.1.iso, h.2.1, h.2.2.1⟩

/-- Children are read from right behind what `ReadPayload` of the box consumes. -/
theorem expand_start (hd : d.length ≤ 2 ^ 48) (h : Handler S P V) (fuel : Nat) (p : P) (s : S) (pos : Nat)
    (path : List BoxType) (bi : BoxInfo) (start : Nat)
    (hev : .openBox path bi start ∈ (traverse d h fuel p s pos).2.log) :
    ∃ box n q, BoxMap.std.unmarshalAny d bi.type (sub64 bi.size bi.headerSize) bi.ctx (bi.offset + bi.headerSize) =
      (.ok (box, n), q) ∧ start = bi.offset + bi.headerSize + n := by
  obtain ⟨_, n, ⟨box, q, h1⟩, h2⟩ := traverse_facts hd h fuel p s pos _ hev
  exact ⟨box, n, q, h1, h2⟩

/-- `if err != nil { return nil, err }; return nil, nil` -/
def returnErr : Except Err (List Unit) → Prog Unit Unit Unit
  | .ok _ => .ret ()
  | .error e => .err e

/-- A handler that expands the boxes of supported types and returns nothing. -/
def expandSupported : Handler Unit Unit Unit := fun hd =>
  if BoxMap.std.isSupported hd.info.type hd.info.ctx then .expand () returnErr else .ret ()

/-- `moov` of announced size 4, followed by `free` of size 8. -/
def outsideFile : Bytes := [0, 0, 0, 4, 0x6d, 0x6f, 0x6f, 0x76, 0, 0, 0, 8, 0x66, 0x72, 0x65, 0x65]

/-- Is the event a call for a child that begins behind its parent? -/
def childBehind : Ev V → Bool
  | .enter (some p) _ bi => decide (p.offset + p.size ≤ bi.offset)
  | _ => false

/-- C22 is false without the condition: the child of the box of size 4 begins behind it. -/
theorem children_outside_parent :
    (traverse outsideFile expandSupported 5 () ()).2.log.any childBehind = true := by decide +kernel

end Mp4.Props
