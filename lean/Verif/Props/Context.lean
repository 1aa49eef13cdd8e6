import Verif.Props.Traverse
import Verif.Lemmas.Ftyp

/-!
# C27: the context of a box is determined by its ancestors, and by the `ftyp` boxes before it
-/

namespace Mp4.Props

open Mp4

/-! ## Specification

Paths are lists of box types, outermost first. -/

/-- Below an item of an `ilst` box (the boxes that hold iTunes metadata: `----`, `©nam`, …). -/
def BelowItem (above : List BoxType) : Prop :=
  ∃ A t C, above = A ++ t :: C ∧ tIlst ∈ A ∧ isIlstMetaType t = true

/-- Below an item of type `----` of an `ilst` box. -/
def BelowFreeItem (above : List BoxType) : Prop :=
  ∃ A C, above = A ++ tFree :: C ∧ tIlst ∈ A ∧ ¬ BelowItem A

/-- The brands in a row of bytes: four bytes each. -/
def brandsOf : Bytes → List BoxType
  | a :: b :: c :: e :: rest => ⟨a, b, c, e⟩ :: brandsOf rest
  | _ => []

/-- The payload of the box; its size is taken modulo 2^61 (the library computes the number of bits in 64-bit
arithmetic). -/
def payloadOf (d : Bytes) (bi : BoxInfo) : Bytes :=
  (d.drop (bi.offset + bi.headerSize)).take ((bi.size - bi.headerSize) % 2 ^ 61)

/-- The payload of an `ftyp` box has `qt  ` among its compatible brands, which follow the major brand and the minor version. -/
def NamesQt (d : Bytes) (bi : BoxInfo) : Prop := ⟨0x71, 0x74, 0x20, 0x20⟩ ∈ brandsOf ((payloadOf d bi).drop 8)

/-- Among the boxes visited is an `ftyp` at the root that names `qt  `. -/
def QtSeen {V : Type} (d : Bytes) (L : List (Ev V)) : Prop :=
  ∃ parent bi, .enter parent [tFtyp] bi ∈ L ∧ NamesQt d bi

/-- The first part of the context says what is above the box. -/
structure CtxOf (above : List BoxType) (c : Ctx) : Prop where
  wave : c.underWave = true ↔ tWave ∈ above
  ilst : c.underIlst = true ↔ tIlst ∈ above
  udta : c.underUdta = true ↔ tUdta ∈ above
  item : c.underIlstMeta = true ↔ BelowItem above
  free : c.underIlstFreeMeta = true ↔ BelowFreeItem above

/-! ## Proofs -/

variable {S P V : Type} {d : Bytes}

theorem snoc_split {α : Type} {l : List α} {x y : α} {A C : List α} (h : l ++ [x] = A ++ y :: C) :
    (C = [] ∧ A = l ∧ y = x) ∨ ∃ C', C = C' ++ [x] ∧ l = A ++ y :: C' := by
  rcases List.eq_nil_or_concat C with rfl | ⟨C', z, rfl⟩
  · have := List.append_inj' h rfl
    exact .inl ⟨rfl, this.1.symm, by simpa using this.2.symm⟩
  · right
    rw [List.concat_eq_append, ← List.cons_append, ← List.append_assoc] at h
    have := List.append_inj' h rfl
    have e : x = z := by simpa using this.2
    subst e
    exact ⟨C', by simp, this.1⟩

theorem belowItem_snoc (l : List BoxType) (t : BoxType) :
    BelowItem (l ++ [t]) ↔ BelowItem l ∨ (tIlst ∈ l ∧ isIlstMetaType t = true) := by
  constructor
  · rintro ⟨A, y, C, h, hA, hy⟩
    rcases snoc_split h with ⟨-, rfl, rfl⟩ | ⟨C', -, rfl⟩
    · exact .inr ⟨hA, hy⟩
    · exact .inl ⟨A, y, C', rfl, hA, hy⟩
  · rintro (⟨A, y, C, rfl, hA, hy⟩ | ⟨hA, hy⟩)
    · exact ⟨A, y, C ++ [t], by simp, hA, hy⟩
    · exact ⟨l, t, [], rfl, hA, hy⟩

theorem belowFree_snoc (l : List BoxType) (t : BoxType) :
    BelowFreeItem (l ++ [t]) ↔ BelowFreeItem l ∨ (t = tFree ∧ tIlst ∈ l ∧ ¬ BelowItem l) := by
  constructor
  · rintro ⟨A, C, h, hA, hn⟩
    rcases snoc_split h with ⟨-, rfl, h2⟩ | ⟨C', -, rfl⟩
    · exact .inr ⟨h2.symm, hA, hn⟩
    · exact .inl ⟨A, C', rfl, hA, hn⟩
  · rintro (⟨A, C, rfl, hA, hn⟩ | ⟨rfl, hA, hn⟩)
    · exact ⟨A, C ++ [t], by simp, hA, hn⟩
    · exact ⟨l, [], rfl, hA, hn⟩

theorem not_item_wave : isIlstMetaType tWave = false := by decide +kernel
theorem not_item_ilst : isIlstMetaType tIlst = false := by decide +kernel
theorem not_item_udta : isIlstMetaType tUdta = false := by decide +kernel
theorem item_free : isIlstMetaType tFree = true := by decide +kernel

/-- from a box to its children -/
theorem ctxOf_child {above : List BoxType} {bi : BoxInfo} (h : CtxOf above bi.ctx) :
    CtxOf (above ++ [bi.type]) (childCtx bi) := by
  obtain ⟨h1, h2, h3, h4, h5⟩ := h
  have wi : tWave ≠ tIlst := by decide
  have wu : tWave ≠ tUdta := by decide
  have iu : tIlst ≠ tUdta := by decide
  unfold childCtx
  split
  · next hw =>
    rw [hw]
    constructor <;> simp only [belowItem_snoc, belowFree_snoc, List.mem_append, List.mem_singleton, *]
    · simp
    · simp [wi.symm]
    · simp [wu.symm]
    · simp [not_item_wave]
    · have : tWave ≠ tFree := by decide
      simp [this]
  split
  · next hw =>
    rw [hw]
    constructor <;> simp only [belowItem_snoc, belowFree_snoc, List.mem_append, List.mem_singleton, *]
    · simp [wi]
    · simp
    · simp [iu.symm]
    · simp [not_item_ilst]
    · have : tIlst ≠ tFree := by decide
      simp [this]
  split
  · next hw hi hc =>
    have hu : bi.type ≠ tUdta := by
      intro e
      rw [e, not_item_udta] at hc
      exact absurd hc.2.2 (by simp)
    have hni : ¬ BelowItem above := by rw [← h4]; exact hc.2.1
    split
    · next hf =>
      constructor <;> simp only [belowItem_snoc, belowFree_snoc, List.mem_append, List.mem_singleton]
      · rw [h1]; simp [Ne.symm hw]
      · rw [h2]; simp [Ne.symm hi]
      · rw [h3]; simp [Ne.symm hu]
      · simp only [true_iff]
        exact .inr ⟨h2.1 hc.1, hc.2.2⟩
      · simp only [true_iff]
        exact .inr ⟨hf, h2.1 hc.1, hni⟩
    · next hf =>
      constructor <;> simp only [belowItem_snoc, belowFree_snoc, List.mem_append, List.mem_singleton]
      · rw [h1]; simp [Ne.symm hw]
      · rw [h2]; simp [Ne.symm hi]
      · rw [h3]; simp [Ne.symm hu]
      · simp only [true_iff]
        exact .inr ⟨h2.1 hc.1, hc.2.2⟩
      · rw [h5]
        simp [hf]
  · next hw hi hc =>
    have hm : (tIlst ∈ above ∧ isIlstMetaType bi.type = true) → BelowItem above := by
      rintro ⟨ha, hb⟩
      exact Classical.byContradiction fun hn => hc ⟨h2.2 ha, by rw [h4]; exact hn, hb⟩
    have hfr : ¬ (bi.type = tFree ∧ tIlst ∈ above ∧ ¬ BelowItem above) := by
      rintro ⟨ht, ha, hn⟩
      exact hn (hm ⟨ha, by rw [ht]; exact item_free⟩)
    split
    · next hu =>
      constructor <;> simp only [belowItem_snoc, belowFree_snoc, List.mem_append, List.mem_singleton]
      · rw [h1]; simp [Ne.symm hw]
      · rw [h2]; simp [Ne.symm hi]
      · simp [hu]
      · rw [h4]; exact ⟨.inl, fun h => h.elim id hm⟩
      · rw [h5]; exact ⟨.inl, fun h => h.resolve_right hfr⟩
    · next hu =>
      constructor <;> simp only [belowItem_snoc, belowFree_snoc, List.mem_append, List.mem_singleton]
      · rw [h1]; simp [Ne.symm hw]
      · rw [h2]; simp [Ne.symm hi]
      · rw [h3]; simp [Ne.symm hu]
      · rw [h4]; exact ⟨.inl, fun h => h.elim id hm⟩
      · rw [h5]; exact ⟨.inl, fun h => h.resolve_right hfr⟩

theorem ctxOf_own {above : List BoxType} {c : Ctx} {path : List BoxType} {bi : BoxInfo} (h : CtxOf above c)
    (ho : OwnCtx d path c bi) : CtxOf above bi.ctx :=
  ⟨by rw [ho.wave]; exact h.wave, by rw [ho.ilst]; exact h.ilst, by rw [ho.udta]; exact h.udta,
    by rw [ho.ilstMeta]; exact h.item, by rw [ho.ilstFree]; exact h.free⟩

theorem ctxOf_next {above : List BoxType} {c : Ctx} (h : CtxOf above c) (bi : BoxInfo) : CtxOf above (nextCtx c bi) := by
  obtain ⟨h1, h2, h3, h4, h5⟩ := h
  unfold nextCtx
  simp only
  split <;> split <;> exact ⟨h1, h2, h3, h4, h5⟩

/-- what has to be shown for every box visited -/
def Above (V : Type) : Ev V → Prop
  | .enter _ path bi => CtxOf path.dropLast bi.ctx
  | _ => True

theorem tr_above {r : Run} {L : List (Ev V)} {o : Out (List V)} (h : Tr d r L o) :
    (match r with
     | .row _ _ _ _ path ctx _ => CtxOf path ctx
     | .body _ path bi => CtxOf path (childCtx bi)) → ∀ e ∈ L, Above V e := by
  induction h with
  | fuel => intro _ e he; cases he
  | over => intro _ e he; cases he
  | ret => intro _ e he; cases he
  | fail => intro _ e he; cases he
  | hang => intro _ e he; cases he
  | stop hb h ih =>
    intro hc e he
    have ho := ctxOf_own hc hb.own
    rcases List.mem_cons.1 he with rfl | he
    · simpa [Above] using ho
    · rcases List.mem_append.1 he with he | he
      · exact ih (ctxOf_child ho) e he
      · rw [List.mem_singleton.1 he]; trivial
  | cut hb h ih =>
    intro hc e he
    have ho := ctxOf_own hc hb.own
    rcases List.mem_cons.1 he with rfl | he
    · simpa [Above] using ho
    · exact ih (ctxOf_child ho) e he
  | noEnd hb h hneg ih =>
    intro hc e he
    have ho := ctxOf_own hc hb.own
    rcases List.mem_cons.1 he with rfl | he
    · simpa [Above] using ho
    · rcases List.mem_append.1 he with he | he
      · exact ih (ctxOf_child ho) e he
      · rw [List.mem_singleton.1 he]; trivial
  | next hb h h' ih ih' =>
    intro hc e he
    have ho := ctxOf_own hc hb.own
    rcases List.mem_cons.1 he with rfl | he
    · simpa [Above] using ho
    · rcases List.mem_append.1 he with he | he
      · exact ih (ctxOf_child ho) e he
      · rcases List.mem_cons.1 he with rfl | he
        · trivial
        · exact ih' (ctxOf_next hc _) e he
  | expand hn h h' ih ih' =>
    intro hc e he
    rcases List.mem_cons.1 he with rfl | he
    · trivial
    · rcases List.mem_append.1 he with he | he
      · exact ih hc e he
      · rcases List.mem_cons.1 he with rfl | he
        · trivial
        · exact ih' hc e he
  | expandErr hn h h' ih ih' =>
    intro hc e he
    rcases List.mem_cons.1 he with rfl | he
    · trivial
    · rcases List.mem_append.1 he with he | he
      · exact ih hc e he
      · rcases List.mem_cons.1 he with rfl | he
        · trivial
        · exact ih' hc e he
  | expandCut hn h ih =>
    intro hc e he
    rcases List.mem_cons.1 he with rfl | he
    · trivial
    · exact ih hc e he

theorem ctxOf_root : CtxOf [] ({} : Ctx) := by
  constructor
  · simp
  · simp
  · simp
  · simp only [Bool.false_eq_true, false_iff]; rintro ⟨A, t, C, h, -⟩; simp at h
  · simp only [Bool.false_eq_true, false_iff]; rintro ⟨A, C, h, -⟩; simp at h

/-- **C27**, first part — In every traversal of any file, with any handler, the context of every box for which the handler is
called says exactly what is above the box: `UnderWave`, `UnderIlst`, `UnderUdta` iff a box of that type is among its
ancestors (not the box itself, not its siblings); `UnderIlstMeta` iff it is below an item of an `ilst`;
`UnderIlstFreeMeta` iff that item is of type `----`. -/
theorem context_says_what_is_above (hd : d.length ≤ 2 ^ 48) (h : Handler S P V) (fuel : Nat) (p : P) (s : S) (pos : Nat)
    (parent : Option BoxInfo) (path : List BoxType) (bi : BoxInfo)
    (hv : .enter parent path bi ∈ (traverse d h fuel p s pos).2.log) : CtxOf path.dropLast bi.ctx :=
  tr_above (traverse_tr hd h fuel p s pos) ctxOf_root _ hv

/-! ### QuickTime compatibility -/

theorem brandsOf_flatMap : ∀ l : List BoxType, brandsOf (l.flatMap BoxType.bytes) = l
  | [] => rfl
  | t :: l => by
    rw [List.flatMap_cons]
    simp only [BoxType.bytes, List.cons_append, List.nil_append, brandsOf]
    rw [brandsOf_flatMap l]

theorem has_iff : ∀ (l : Brands) (b : BoxType), l.has b = true ↔ b ∈ l
  | [], b => by simp [Brands.has]
  | x :: l, b => by
    unfold Brands.has
    split
    · next h => simp [h]
    · next h =>
      rw [has_iff l b, List.mem_cons]
      exact ⟨.inr, fun hh => hh.resolve_left (fun e => h e.symm)⟩

theorem ftypQt_iff (hd : d.length ≤ maxAlloc) {ctx : Ctx} {bi : BoxInfo} (hb : HeaderAt d bi) (hok : FtypOk d ctx bi) :
    FtypQt d ctx bi ↔ NamesQt d bi := by
  obtain ⟨box, n, p, hu⟩ := hok
  have hq : FtypQt d ctx bi ↔ (ftypBrands box.sv).has brandQT = true := by
    constructor
    · rintro ⟨box', n', p', hu', h⟩
      rw [hu] at hu'
      cases hu'
      exact h
    · exact fun h => ⟨box, n, p, hu, h⟩
  rw [hq, has_iff]
  obtain ⟨o, p', ho, hpost⟩ := any_post hd hb.inside tFtyp ctx (sub64 bi.size bi.headerSize)
  rw [hu] at ho
  cases ho
  have hu := unmarshalAny_ok_inv (std_ftyp_def ctx) hu
  have hn := ftyp_full hu
  obtain ⟨h8, hbytes⟩ := ftyp_bytes hd (zero_typedFields _) hb.inside hu
  have hin : bi.offset + bi.headerSize + n ≤ d.length := by
    have h1 := hpost.2.1
    have h2 := hpost.2.2.1
    omega
  have hsz : (bi.size - bi.headerSize) % 2 ^ 61 = n := by
    have := hb.hdr
    have := hb.lt
    unfold sub64 at hn
    simp only [U64, maxAlloc] at *
    omega
  unfold NamesQt payloadOf
  rw [hsz, List.drop_take, List.drop_drop, hbytes, brandsOf_flatMap]
  exact Iff.rfl

/-- what has to be shown for every box visited, given the events before it -/
def QtFact (d : Bytes) (H : List (Ev V)) : Ev V → Prop
  | .enter parent path bi => bi.ctx.isQuickTimeCompatible = true ↔ QtSeen d (H ++ [.enter parent path bi])
  | _ => True

/-- the fact holds for every event of `L`, which comes after `H` -/
def Hist (d : Bytes) (H L : List (Ev V)) : Prop := ∀ A e B, L = A ++ e :: B → QtFact d (H ++ A) e

theorem hist_nil (H : List (Ev V)) : Hist d H [] := by
  intro A e B h
  simp at h

theorem hist_cons {H : List (Ev V)} {e : Ev V} {L : List (Ev V)} (h1 : QtFact d H e) (h2 : Hist d (H ++ [e]) L) :
    Hist d H (e :: L) := by
  intro A x B h
  cases A with
  | nil => simp at h; obtain ⟨rfl, -⟩ := h; simpa using h1
  | cons y A =>
    simp at h
    obtain ⟨rfl, h⟩ := h
    have := h2 A x B h
    simpa using this

theorem hist_append {H L M : List (Ev V)} (h1 : Hist d H L) (h2 : Hist d (H ++ L) M) : Hist d H (L ++ M) := by
  induction L generalizing H with
  | nil => simpa using h2
  | cons e L ih =>
    rw [List.cons_append]
    apply hist_cons
    · simpa using h1 [] e L rfl
    · apply ih
      · intro A x B h
        have := h1 (e :: A) x B (by rw [h]; rfl)
        simpa using this
      · simpa using h2

/-- events that do not matter for `QtSeen` -/
def Deep : Ev V → Prop
  | .enter _ path _ => 2 ≤ path.length
  | _ => True

theorem qtSeen_deep {H L : List (Ev V)} (h : ∀ e ∈ L, Deep e) : QtSeen d (H ++ L) ↔ QtSeen d H := by
  constructor
  · rintro ⟨parent, bi, hm, hq⟩
    rcases List.mem_append.1 hm with hm | hm
    · exact ⟨parent, bi, hm, hq⟩
    · exact absurd (h _ hm) (by simp [Deep])
  · rintro ⟨parent, bi, hm, hq⟩
    exact ⟨parent, bi, List.mem_append.2 (.inl hm), hq⟩

theorem tr_deep {r : Run} {L : List (Ev V)} {o : Out (List V)} (h : Tr d r L o) :
    (match r with
     | .row _ _ _ _ path _ _ => path ≠ []
     | .body _ path _ => path ≠ []) → ∀ e ∈ L, Deep e := by
  have two : ∀ {path : List BoxType} {t : BoxType}, path ≠ [] → 2 ≤ (path ++ [t]).length := by
    intro path t h
    have := List.length_pos_iff.2 h
    simp
    omega
  induction h with
  | fuel => intro _ e he; cases he
  | over => intro _ e he; cases he
  | ret => intro _ e he; cases he
  | fail => intro _ e he; cases he
  | hang => intro _ e he; cases he
  | stop hb h ih =>
    intro hc e he
    rcases List.mem_cons.1 he with rfl | he
    · exact two hc
    · rcases List.mem_append.1 he with he | he
      · exact ih (by simp) e he
      · rw [List.mem_singleton.1 he]; trivial
  | cut hb h ih =>
    intro hc e he
    rcases List.mem_cons.1 he with rfl | he
    · exact two hc
    · exact ih (by simp) e he
  | noEnd hb h hneg ih =>
    intro hc e he
    rcases List.mem_cons.1 he with rfl | he
    · exact two hc
    · rcases List.mem_append.1 he with he | he
      · exact ih (by simp) e he
      · rw [List.mem_singleton.1 he]; trivial
  | next hb h h' ih ih' =>
    intro hc e he
    rcases List.mem_cons.1 he with rfl | he
    · exact two hc
    · rcases List.mem_append.1 he with he | he
      · exact ih (by simp) e he
      · rcases List.mem_cons.1 he with rfl | he
        · trivial
        · exact ih' hc e he
  | expand hn h h' ih ih' =>
    intro hc e he
    rcases List.mem_cons.1 he with rfl | he
    · trivial
    · rcases List.mem_append.1 he with he | he
      · exact ih hc e he
      · rcases List.mem_cons.1 he with rfl | he
        · trivial
        · exact ih' hc e he
  | expandErr hn h h' ih ih' =>
    intro hc e he
    rcases List.mem_cons.1 he with rfl | he
    · trivial
    · rcases List.mem_append.1 he with he | he
      · exact ih hc e he
      · rcases List.mem_cons.1 he with rfl | he
        · trivial
        · exact ih' hc e he
  | expandCut hn h ih =>
    intro hc e he
    rcases List.mem_cons.1 he with rfl | he
    · trivial
    · exact ih hc e he

/-- a box of the row: its flag, and what has been seen when it is visited -/
theorem qt_enter (hd : d.length ≤ maxAlloc) {total : Nat} {isRoot : Bool} {path : List BoxType} {ctx : Ctx} {pos : Nat}
    {bi : BoxInfo} (hb : BoxAt d total isRoot path ctx pos bi) {H : List (Ev V)}
    (hc : ctx.isQuickTimeCompatible = true ↔ QtSeen d H) (parent : Option BoxInfo) :
    bi.ctx.isQuickTimeCompatible = true ↔ QtSeen d (H ++ [.enter parent (path ++ [bi.type]) bi]) := by
  rw [hb.own.qt, hc]
  constructor
  · rintro (⟨p, b, hm, hq⟩ | ⟨rfl, ht, hq⟩)
    · exact ⟨p, b, List.mem_append.2 (.inl hm), hq⟩
    · refine ⟨parent, bi, List.mem_append.2 (.inr ?_), ?_⟩
      · simp [ht]
      · exact (ftypQt_iff hd hb.hdr (hb.own.ftyp rfl ht)).1 hq
  · rintro ⟨p, b, hm, hq⟩
    rcases List.mem_append.1 hm with hm | hm
    · exact .inl ⟨p, b, hm, hq⟩
    · right
      simp only [List.mem_singleton, Ev.enter.injEq] at hm
      obtain ⟨rfl, hp, rfl⟩ := hm
      have hpath : path = [] ∧ b.type = tFtyp := by
        cases path with
        | nil => exact ⟨rfl, by simpa using hp.symm⟩
        | cons x xs => simp at hp
      exact ⟨hpath.1, hpath.2, (ftypQt_iff hd hb.hdr (hb.own.ftyp hpath.1 hpath.2)).2 hq⟩

theorem nextCtx_qt (ctx : Ctx) (bi : BoxInfo) :
    (nextCtx ctx bi).isQuickTimeCompatible = (ctx.isQuickTimeCompatible || bi.ctx.isQuickTimeCompatible) := by
  unfold nextCtx
  simp only
  split <;> split <;> simp_all

theorem childCtx_qt (bi : BoxInfo) : (childCtx bi).isQuickTimeCompatible = bi.ctx.isQuickTimeCompatible := by
  unfold childCtx
  repeat' split
  all_goals rfl

theorem tr_qt (hd : d.length ≤ maxAlloc) {r : Run} {L : List (Ev V)} {o : Out (List V)} (h : Tr d r L o) :
    ∀ H, (match r with
     | .row _ _ _ _ _ ctx _ => ctx.isQuickTimeCompatible = true ↔ QtSeen d H
     | .body _ path bi => path ≠ [] ∧ (bi.ctx.isQuickTimeCompatible = true ↔ QtSeen d H)) → Hist d H L := by
  induction h with
  | fuel => intro H _; exact hist_nil H
  | over => intro H _; exact hist_nil H
  | ret => intro H _; exact hist_nil H
  | fail => intro H _; exact hist_nil H
  | hang => intro H _; exact hist_nil H
  | stop hb h ih =>
    intro H hc
    have hq := qt_enter hd hb hc (by assumption)
    exact hist_cons hq (hist_append (ih _ ⟨by simp, hq⟩) (hist_cons trivial (hist_nil _)))
  | cut hb h ih =>
    intro H hc
    have hq := qt_enter hd hb hc (by assumption)
    exact hist_cons hq (ih _ ⟨by simp, hq⟩)
  | noEnd hb h hneg ih =>
    intro H hc
    have hq := qt_enter hd hb hc (by assumption)
    exact hist_cons hq (hist_append (ih _ ⟨by simp, hq⟩) (hist_cons trivial (hist_nil _)))
  | next hb h h' ih ih' =>
    intro H hc
    have hq := qt_enter hd hb hc (by assumption)
    refine hist_cons hq (hist_append (ih _ ⟨by simp, hq⟩) (hist_cons trivial (ih' _ ?_)))
    simp only
    rw [nextCtx_qt, Bool.or_eq_true, qtSeen_deep (by simp [Deep]), qtSeen_deep (tr_deep h (by simp)), ← hq, hb.own.qt]
    exact ⟨fun h => h.elim .inl id, .inr⟩
  | expand hn h h' ih ih' =>
    intro H hc
    simp only at hc
    refine hist_cons trivial (hist_append (ih _ ?_) (hist_cons trivial (ih' _ ⟨hc.1, ?_⟩)))
    · simp only
      rw [childCtx_qt, qtSeen_deep (by simp [Deep])]; exact hc.2
    · rw [qtSeen_deep (by simp [Deep]), qtSeen_deep (tr_deep h hc.1), qtSeen_deep (by simp [Deep])]; exact hc.2
  | expandErr hn h h' ih ih' =>
    intro H hc
    simp only at hc
    refine hist_cons trivial (hist_append (ih _ ?_) (hist_cons trivial (ih' _ ⟨hc.1, ?_⟩)))
    · simp only
      rw [childCtx_qt, qtSeen_deep (by simp [Deep])]; exact hc.2
    · rw [qtSeen_deep (by simp [Deep]), qtSeen_deep (tr_deep h hc.1), qtSeen_deep (by simp [Deep])]; exact hc.2
  | expandCut hn h ih =>
    intro H hc
    simp only at hc
    refine hist_cons trivial (ih _ ?_)
    simp only
    rw [childCtx_qt, qtSeen_deep (by simp [Deep])]; exact hc.2

/-- **C27**, second part — In every traversal of any file, with any handler, the context of a box says that the file is
QuickTime compatible iff, up to and including this box, an `ftyp` box at the root has been visited that has `qt  ` among
its compatible brands. -/
theorem quicktime_after_ftyp (hd : d.length ≤ 2 ^ 48) (h : Handler S P V) (fuel : Nat) (p : P) (s : S) (pos : Nat)
    (before after : List (Ev V)) (parent : Option BoxInfo) (path : List BoxType) (bi : BoxInfo)
    (hv : (traverse d h fuel p s pos).2.log = before ++ .enter parent path bi :: after) :
    bi.ctx.isQuickTimeCompatible = true ↔ QtSeen d (before ++ [.enter parent path bi]) := by
  have := tr_qt hd (traverse_tr hd h fuel p s pos) [] (by simp [QtSeen]) before _ after hv
  simpa [QtFact] using this

/-! ### A file that meets the conditions -/

/-- `ftyp` (with brand `qt  `), `moov` { `udta` { `meta` { `ilst` { `----` { `data` } } } } }, `wave` -/
def itemFile : Bytes := [0, 0, 0, 24, 102, 116, 121, 112, 113, 116, 32, 32, 0, 0, 0, 0, 105, 115, 111, 109,
  113, 116, 32, 32, 0, 0, 0, 62, 109, 111, 111, 118, 0, 0, 0, 54, 117, 100, 116, 97,
  0, 0, 0, 46, 109, 101, 116, 97, 0, 0, 0, 0, 0, 0, 0, 34, 105, 108, 115, 116,
  0, 0, 0, 26, 45, 45, 45, 45, 0, 0, 0, 18, 100, 97, 116, 97, 0, 0, 0, 1,
  0, 0, 0, 0, 104, 105, 0, 0, 0, 8, 119, 97, 118, 101]

/-- path length and context of the boxes visited -/
def visits : List (Ev V) → List (Nat × List Bool)
  | .enter _ path bi :: l => (path.length, [bi.ctx.isQuickTimeCompatible, bi.ctx.underWave, bi.ctx.underIlst,
      bi.ctx.underIlstMeta, bi.ctx.underIlstFreeMeta, bi.ctx.underUdta]) :: visits l
  | _ :: l => visits l
  | [] => []

/-- All boxes of the file are visited; the contexts are as the theorems say. -/
example : (match traverse itemFile expandSupported 20 () () with
    | (.ok l, st) => (l.length, visits st.log)
    | _ => (0, [])) =
    (3, [(1, [true, false, false, false, false, false]), (1, [true, false, false, false, false, false]),
      (2, [true, false, false, false, false, false]), (3, [true, false, false, false, false, true]),
      (4, [true, false, false, false, false, true]), (5, [true, false, true, false, false, true]),
      (6, [true, false, true, true, true, true]), (1, [true, false, false, false, false, false])]) := by decide +kernel

end Mp4.Props
