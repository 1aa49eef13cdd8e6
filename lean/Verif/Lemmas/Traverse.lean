import Verif.Lemmas.Lookup
import Verif.Props.BoxInfo

/-!
# Every traversal, whatever the handler does

`Tr` is a big-step description of traversals in which the handler has been abstracted away: any handler may do
anything it can do.  `readStructure_tr` shows that every run is described by it.
-/

namespace Mp4

open Mp4.Props

theorem readBoxInfo_post {d : Bytes} (hd : d.length ≤ maxAlloc) (pos : Nat) :
    (∃ bi, readBoxInfo d pos = (.ok bi, pos + bi.headerSize) ∧ bi.offset = pos ∧
      (bi.headerSize = 8 ∨ bi.headerSize = 16) ∧ pos + bi.headerSize ≤ d.length ∧ 1 ≤ bi.size ∧ bi.size < U64 ∧ bi.ctx = {} ∧
      isoHeader (d.drop pos) = .box bi.size bi.headerSize bi.type bi.extendToEOF) ∨
    (∃ e p, readBoxInfo d pos = (.err e, p) ∧ ∀ s h t x, isoHeader (d.drop pos) ≠ .box s h t x) := by
  have hiso := readBoxInfo_iso d pos (by simp only [maxAlloc] at hd; omega)
  have hpost : ∀ l s h t x, isoHeader l = .box s h t x → l.length < U64 →
      (h = 8 ∨ h = 16) ∧ h ≤ l.length ∧ 1 ≤ s ∧ s < U64 := by
    intro l s h t x hl hlen
    unfold isoHeader at hl
    split at hl
    · next s0 s1 s2 s3 t0 t1 t2 t3 rest =>
      have hb4 : be [s0, s1, s2, s3] < U64 := by
        have := s0.isLt; have := s1.isLt; have := s2.isLt; have := s3.isLt
        simp only [be, List.length_cons, List.length_nil, U64]
        omega
      simp only [List.length_cons] at hlen ⊢
      simp only at hl
      generalize be [s0, s1, s2, s3] = sz at *
      split at hl
      · cases hl
        simp only [U64] at hlen ⊢
        refine ⟨.inl trivial, ?_, ?_, ?_⟩ <;> omega
      · split at hl
        · unfold isoLarge at hl
          split at hl
          · next l0 l1 l2 l3 l4 l5 l6 l7 r =>
            have hb8 : be [l0, l1, l2, l3, l4, l5, l6, l7] < U64 := by
              have := l0.isLt; have := l1.isLt; have := l2.isLt; have := l3.isLt
              have := l4.isLt; have := l5.isLt; have := l6.isLt; have := l7.isLt
              simp only [be, List.length_cons, List.length_nil, U64]
              omega
            generalize be [l0, l1, l2, l3, l4, l5, l6, l7] = m at *
            split at hl
            · cases hl
            · cases hl
              simp only [List.length_cons]
              refine ⟨.inr trivial, ?_, ?_, ?_⟩ <;> omega
          · cases hl
        · cases hl
          omega
    · cases hl
  cases hh : isoHeader (d.drop pos) with
  | box s h t x =>
    rw [hh] at hiso
    simp only at hiso
    have hp := hpost _ _ _ _ _ hh (by rw [List.length_drop]; simp only [maxAlloc, U64] at *; omega)
    rw [List.length_drop] at hp
    refine .inl ⟨_, hiso, rfl, hp.1, ?_, hp.2.2.1, hp.2.2.2, rfl, rfl⟩
    simp only
    omega
  | truncated =>
    rw [hh] at hiso
    obtain ⟨p, hp⟩ := hiso
    exact .inr ⟨_, p, hp, by intros; simp⟩
  | zeroSize =>
    rw [hh] at hiso
    obtain ⟨p, hp⟩ := hiso
    exact .inr ⟨_, p, hp, by intros; simp⟩

/-- `ReadPayload` of the box succeeds and consumes `n` bytes. -/
def PayloadN (d : Bytes) (bi : BoxInfo) (n : Nat) : Prop :=
  ∃ box p, BoxMap.std.unmarshalAny d bi.type (sub64 bi.size bi.headerSize) bi.ctx (bi.offset + bi.headerSize) =
    (.ok (box, n), p)

/-- `ReadPayload` of the box does not return. -/
def PayloadHangs (d : Bytes) (bi : BoxInfo) : Prop :=
  (BoxMap.std.unmarshalAny d bi.type (sub64 bi.size bi.headerSize) bi.ctx (bi.offset + bi.headerSize)).1 = .hang

/-- The payload of an `ftyp` box, decoded in context `ctx`, names the brand `qt  `. -/
def FtypQt (d : Bytes) (ctx : Ctx) (bi : BoxInfo) : Prop :=
  ∃ box n p, BoxMap.std.unmarshalAny d tFtyp (sub64 bi.size bi.headerSize) ctx (bi.offset + bi.headerSize) =
    (.ok (box, n), p) ∧ (ftypBrands box.sv).has brandQT = true

/-- The payload of an `ftyp` box can be decoded. -/
def FtypOk (d : Bytes) (ctx : Ctx) (bi : BoxInfo) : Prop :=
  ∃ box n p, BoxMap.std.unmarshalAny d tFtyp (sub64 bi.size bi.headerSize) ctx (bi.offset + bi.headerSize) =
    (.ok (box, n), p)

/-- The payload of a `keys` box, decoded in context `ctx`, says that there are `c` keys. -/
def KeysCount (d : Bytes) (ctx : Ctx) (bi : BoxInfo) (c : Int) : Prop :=
  ∃ box n p, BoxMap.std.unmarshalAny d tKeys (sub64 bi.size bi.headerSize) ctx (bi.offset + bi.headerSize) =
    (.ok (box, n), p) ∧ box.sv.int "EntryCount" = c

/-- The header of `bi` is at its offset in `d`. -/
structure HeaderAt (d : Bytes) (bi : BoxInfo) : Prop where
  hdr : bi.headerSize = 8 ∨ bi.headerSize = 16
  inside : bi.offset + bi.headerSize ≤ d.length
  pos : 1 ≤ bi.size
  lt : bi.size < U64
  iso : isoHeader (d.drop bi.offset) = .box bi.size bi.headerSize bi.type bi.extendToEOF

/-- The context of a box in terms of the context handed to its row. -/
structure OwnCtx (d : Bytes) (path : List BoxType) (ctx : Ctx) (bi : BoxInfo) : Prop where
  wave : bi.ctx.underWave = ctx.underWave
  ilst : bi.ctx.underIlst = ctx.underIlst
  ilstMeta : bi.ctx.underIlstMeta = ctx.underIlstMeta
  ilstFree : bi.ctx.underIlstFreeMeta = ctx.underIlstFreeMeta
  udta : bi.ctx.underUdta = ctx.underUdta
  qt : bi.ctx.isQuickTimeCompatible = true ↔
    ctx.isQuickTimeCompatible = true ∨ path = [] ∧ bi.type = tFtyp ∧ FtypQt d ctx bi
  ftyp : path = [] → bi.type = tFtyp → FtypOk d ctx bi
  keys : bi.type ≠ tKeys → bi.ctx.quickTimeKeysMetaEntryCount = ctx.quickTimeKeysMetaEntryCount
  keys' : bi.type = tKeys → KeysCount d ctx bi bi.ctx.quickTimeKeysMetaEntryCount

/-- What is being run: `row` — boxes one after another from `pos` (`readBoxStructure`); `body` — the handler for a box. -/
inductive Run where
  | row (fuel : Nat) (parent : Option BoxInfo) (total : Nat) (isRoot : Bool) (path : List BoxType) (ctx : Ctx) (pos : Nat)
  | body (fuel : Nat) (path : List BoxType) (bi : BoxInfo)

/-- prepend a value -/
def consO {V : Type} (v : V) : Out (List V) → Out (List V)
  | .ok vs => .ok (v :: vs)
  | .err e => .err e
  | .panic => .panic
  | .hang => .hang

/-- A box in a row. -/
structure BoxAt (d : Bytes) (total : Nat) (isRoot : Bool) (path : List BoxType) (ctx : Ctx) (pos : Nat) (bi : BoxInfo) :
    Prop where
  offset : bi.offset = pos
  hdr : HeaderAt d bi
  own : OwnCtx d path ctx bi
  fit : isRoot = true ∨ (8 ≤ total ∧ bi.size ≤ total)

/-- The payload of a box of type `t` cannot be decoded. -/
def BadPayload (d : Bytes) (ctx : Ctx) (pos size hs : Nat) (t : BoxType) (e : Err) : Prop :=
  (BoxMap.std.unmarshalAny d t (sub64 size hs) ctx (pos + hs)).1 = .err e

/-- Why a row ends without another call of the handler. -/
inductive RowEnd {V : Type} (d : Bytes) (total : Nat) (isRoot : Bool) (path : List BoxType) (ctx : Ctx) (pos : Nat) :
    Out (List V) → Prop where
  | eof (hr : isRoot = true) {p : Nat} (h : readBoxInfo d pos = (.err .eof, p)) : RowEnd d total isRoot path ctx pos (.ok [])
  | header (hr : isRoot = true ∨ 8 ≤ total) {e : Err} {p : Nat} (h : readBoxInfo d pos = (.err e, p))
      (he : ¬ (isRoot = true ∧ e = .eof)) : RowEnd d total isRoot path ctx pos (.err e)
  | large (hr : isRoot = false) (h8 : 8 ≤ total) {bi : BoxInfo} {p : Nat} (h : readBoxInfo d pos = (.ok bi, p))
      (hs : total < bi.size) : RowEnd d total isRoot path ctx pos (.err .tooLargeBoxSize)
  | payload (hr : isRoot = true ∨ 8 ≤ total) {bi : BoxInfo} {p : Nat} (h : readBoxInfo d pos = (.ok bi, p))
      (hs : isRoot = true ∨ bi.size ≤ total) (ht : path = [] ∧ bi.type = tFtyp ∨ bi.type = tKeys) {e : Err} {ctx' : Ctx}
      (hb : BadPayload d ctx' pos bi.size bi.headerSize bi.type e) : RowEnd d total isRoot path ctx pos (.err e)
  | short (hr : isRoot = false) (h8 : total < 8) (h0 : total ≠ 0) (hq : ctx.isQuickTimeCompatible = false) :
      RowEnd d total isRoot path ctx pos (.err .unexpectedEndOfBox)
  | full (hr : isRoot = false) (h8 : total < 8) (h0 : total = 0 ∨ ctx.isQuickTimeCompatible = true) :
      RowEnd d total isRoot path ctx pos (.ok [])

/-- Traversals with an arbitrary handler: the events recorded and the outcome (of a body that returns `v`: `ok [v]`). -/
inductive Tr {V : Type} (d : Bytes) : Run → List (Ev V) → Out (List V) → Prop where
  | fuel (parent total isRoot path ctx pos) : Tr d (.row 0 parent total isRoot path ctx pos) [] .hang
  | over {f parent total isRoot path ctx pos o} (h : RowEnd d total isRoot path ctx pos o) :
      Tr d (.row (f + 1) parent total isRoot path ctx pos) [] o
  | stop {f parent total isRoot path ctx pos bi L e} (hb : BoxAt d total isRoot path ctx pos bi)
      (h : Tr d (.body f (path ++ [bi.type]) bi) L (.err e)) :
      Tr d (.row (f + 1) parent total isRoot path ctx pos)
        (.enter parent (path ++ [bi.type]) bi :: (L ++ [.leave parent (path ++ [bi.type]) bi (.error e)])) (.err e)
  | cut {f parent total isRoot path ctx pos bi L} (hb : BoxAt d total isRoot path ctx pos bi)
      (h : Tr d (.body f (path ++ [bi.type]) bi) L .hang) :
      Tr d (.row (f + 1) parent total isRoot path ctx pos) (.enter parent (path ++ [bi.type]) bi :: L) .hang
  | noEnd {f parent total isRoot path ctx pos bi L v} (hb : BoxAt d total isRoot path ctx pos bi)
      (h : Tr d (.body f (path ++ [bi.type]) bi) L (.ok [v])) (hneg : 2 ^ 63 ≤ (bi.offset + bi.size) % U64) :
      Tr d (.row (f + 1) parent total isRoot path ctx pos)
        (.enter parent (path ++ [bi.type]) bi :: (L ++ [.leave parent (path ++ [bi.type]) bi (.ok v)])) (.err .negativeSeek)
  | next {f parent total isRoot path ctx pos bi L v L' o} (hb : BoxAt d total isRoot path ctx pos bi)
      (h : Tr d (.body f (path ++ [bi.type]) bi) L (.ok [v]))
      (h' : Tr d (.row f parent (sub64 total bi.size) isRoot path (nextCtx ctx bi) ((bi.offset + bi.size) % U64)) L' o) :
      Tr d (.row (f + 1) parent total isRoot path ctx pos)
        (.enter parent (path ++ [bi.type]) bi :: (L ++ .leave parent (path ++ [bi.type]) bi (.ok v) :: L')) (consO v o)
  | ret (f path bi v) : Tr d (.body f path bi) [] (.ok [v])
  | fail (f path bi e) : Tr d (.body f path bi) [] (.err e)
  | hang {f path bi} (h : PayloadHangs d bi) : Tr d (.body f path bi) [] .hang
  | expand {f path bi n L vs M o} (hn : PayloadN d bi n)
      (h : Tr d (.row f (some bi) (sub64 (add64 bi.offset bi.size) (bi.offset + bi.headerSize + n)) false path
        (childCtx bi) (bi.offset + bi.headerSize + n)) L (.ok vs)) (h' : Tr d (.body f path bi) M o) :
      Tr d (.body f path bi) (.openBox path bi (bi.offset + bi.headerSize + n) ::
        (L ++ .closeBox path bi (.ok vs) :: M)) o
  | expandErr {f path bi n L e M o} (hn : PayloadN d bi n)
      (h : Tr d (.row f (some bi) (sub64 (add64 bi.offset bi.size) (bi.offset + bi.headerSize + n)) false path
        (childCtx bi) (bi.offset + bi.headerSize + n)) L (.err e)) (h' : Tr d (.body f path bi) M o) :
      Tr d (.body f path bi) (.openBox path bi (bi.offset + bi.headerSize + n) ::
        (L ++ .closeBox path bi (.error e) :: M)) o
  | expandCut {f path bi n L} (hn : PayloadN d bi n)
      (h : Tr d (.row f (some bi) (sub64 (add64 bi.offset bi.size) (bi.offset + bi.headerSize + n)) false path
        (childCtx bi) (bi.offset + bi.headerSize + n)) L .hang) :
      Tr d (.body f path bi) (.openBox path bi (bi.offset + bi.headerSize + n) :: L) .hang

section
variable {S P V : Type} {d : Bytes}

theorem tr_no_panic {r : Run} {L : List (Ev V)} {o : Out (List V)} (h : Tr d r L o) : o ≠ .panic := by
  induction h with
  | next hb h h' ih ih' =>
    rename_i o
    cases o with
    | panic => exact absurd rfl ih'
    | _ => simp [consO]
  | over h => cases h <;> simp
  | expand hn h h' ih ih' => exact ih'
  | expandErr hn h h' ih ih' => exact ih'
  | _ => simp

theorem seekToPayload_ok {bi : BoxInfo} (hd : d.length ≤ maxAlloc) (h : bi.offset + bi.headerSize ≤ d.length) (pos : Nat) :
    bi.seekToPayload pos = (.ok (bi.offset + bi.headerSize), bi.offset + bi.headerSize) := by
  unfold BoxInfo.seekToPayload seekStartP add64
  have e : (bi.offset + bi.headerSize) % U64 = bi.offset + bi.headerSize := by
    simp only [U64, maxAlloc] at *; omega
  rw [e, e, if_neg (by simp only [maxAlloc] at hd; omega)]

theorem readPayloadP_ok {bi : BoxInfo} (hd : d.length ≤ maxAlloc) (h : bi.offset + bi.headerSize ≤ d.length) (pos : Nat) :
    readPayloadP BoxMap.std d bi pos =
      BoxMap.std.unmarshalAny d bi.type (sub64 bi.size bi.headerSize) bi.ctx (bi.offset + bi.headerSize) := by
  unfold readPayloadP
  rw [M.bind_ok (seekToPayload_ok hd h pos)]

/-- no panic; hang only for `trun` -/
theorem payload_post {bi : BoxInfo} (hd : d.length ≤ maxAlloc) (h : bi.offset + bi.headerSize ≤ d.length) :
    AnyPost d (bi.offset + bi.headerSize) (sub64 bi.size bi.headerSize) bi.type bi.ctx
      (BoxMap.std.unmarshalAny d bi.type (sub64 bi.size bi.headerSize) bi.ctx (bi.offset + bi.headerSize)) :=
  unmarshalAny_post hd h _ _ _

theorem any_post {pos : Nat} (hd : d.length ≤ maxAlloc) (h : pos ≤ d.length) (t : BoxType) (ctx : Ctx) (ps : Nat) :
    ∃ o p, BoxMap.std.unmarshalAny d t ps ctx pos = (o, p) ∧ AnyPost d pos ps t ctx (o, p) := by
  have h := unmarshalAny_post hd h t ctx ps
  generalize BoxMap.std.unmarshalAny d t ps ctx pos = x at h ⊢
  exact ⟨x.1, x.2, rfl, h⟩

theorem lookup_not_trun {t : BoxType} {name : String}
    (hs : (BoxMap.std t).map (fun bd => (bd.goName, bd.target.isNone)) = [(name, true)]) (hn : name ≠ "Trun") (ctx : Ctx) :
    ¬ ∃ bd, BoxMap.std.getBoxDef t ctx = some bd ∧ bd.goName = "Trun" := by
  rintro ⟨bd, h1, h2⟩
  obtain ⟨bd', h3, h4⟩ := lookup_single hs ctx
  rw [h1] at h3
  cases h3
  exact hn (h4.symm.trans h2)

/-- what changes in the box info before the handler is called -/
structure SameBox (bi bi' : BoxInfo) : Prop where
  offset : bi'.offset = bi.offset
  size : bi'.size = bi.size
  hdr : bi'.headerSize = bi.headerSize
  type : bi'.type = bi.type
  eof : bi'.extendToEOF = bi.extendToEOF

theorem checkFtyp_post {bi : BoxInfo} (hd : d.length ≤ maxAlloc) (h : bi.offset + bi.headerSize ≤ d.length)
    (path : List BoxType) :
    (∃ bi', checkFtyp BoxMap.std d path bi (bi.offset + bi.headerSize) = (.ok bi', bi.offset + bi.headerSize) ∧
      SameBox bi bi' ∧ (path = [] → bi.type = tFtyp → FtypOk d bi.ctx bi) ∧ ((bi'.ctx = bi.ctx ∧ ¬ (path = [] ∧ bi.type = tFtyp ∧ FtypQt d bi.ctx bi)) ∨
        (bi'.ctx = { bi.ctx with isQuickTimeCompatible := true } ∧ path = [] ∧ bi.type = tFtyp ∧ FtypQt d bi.ctx bi))) ∨
    (∃ e p, checkFtyp BoxMap.std d path bi (bi.offset + bi.headerSize) = (.err e, p) ∧ path = [] ∧ bi.type = tFtyp ∧
      BadPayload d bi.ctx bi.offset bi.size bi.headerSize bi.type e) := by
  unfold checkFtyp
  split
  · next hc =>
    obtain ⟨o, p, hu, hp⟩ := any_post hd h tFtyp bi.ctx (sub64 bi.size bi.headerSize)
    · match o, hp with
      | .ok (box, n), hp =>
        left
        rw [M.bind_ok hu]
        simp only
        by_cases hq : (ftypBrands box.sv).has brandQT = true
        · refine ⟨{ bi with ctx := { bi.ctx with isQuickTimeCompatible := true } }, ?_, ⟨rfl, rfl, rfl, rfl, rfl⟩,
            fun _ _ => ⟨box, n, p, hu⟩, .inr ⟨rfl, List.eq_nil_of_length_eq_zero hc.1, hc.2, box, n, p, hu, hq⟩⟩
          rw [if_pos hq]
          rw [M.bind_ok (seekToPayload_ok (bi := { bi with ctx := { bi.ctx with isQuickTimeCompatible := true } }) hd h p)]
          rfl
        · refine ⟨bi, ?_, ⟨rfl, rfl, rfl, rfl, rfl⟩, fun _ _ => ⟨box, n, p, hu⟩, .inl ⟨rfl, ?_⟩⟩
          · rw [if_neg hq, M.bind_ok (seekToPayload_ok hd h p)]
            rfl
          · rintro ⟨-, -, box', n', p', hu', hq'⟩
            rw [hu] at hu'
            cases hu'
            exact hq hq'
      | .err e, _ =>
        right
        refine ⟨e, p, M.bind_err hu, List.eq_nil_of_length_eq_zero hc.1, hc.2, ?_⟩
        unfold BadPayload; rw [hc.2, hu]
      | .hang, hp => exact absurd hp.1 (lookup_not_trun std_ftyp (by decide) _)
  · next hc =>
    left
    refine ⟨bi, rfl, ⟨rfl, rfl, rfl, rfl, rfl⟩, fun h1 h2 => absurd ⟨by rw [h1]; rfl, h2⟩ hc, .inl ⟨rfl, ?_⟩⟩
    rintro ⟨h1, h2, -⟩
    exact hc ⟨by rw [h1]; rfl, h2⟩

theorem checkKeys_post {bi : BoxInfo} (hd : d.length ≤ maxAlloc) (h : bi.offset + bi.headerSize ≤ d.length) :
    (∃ bi', checkKeys BoxMap.std d bi (bi.offset + bi.headerSize) = (.ok bi', bi.offset + bi.headerSize) ∧
      SameBox bi bi' ∧ (bi'.ctx = bi.ctx ∧ bi.type ≠ tKeys ∨
        (∃ c, bi'.ctx = { bi.ctx with quickTimeKeysMetaEntryCount := c } ∧ KeysCount d bi.ctx bi c) ∧ bi.type = tKeys)) ∨
    (∃ e p, checkKeys BoxMap.std d bi (bi.offset + bi.headerSize) = (.err e, p) ∧ bi.type = tKeys ∧
      BadPayload d bi.ctx bi.offset bi.size bi.headerSize bi.type e) := by
  unfold checkKeys
  split
  · next hc =>
    obtain ⟨o, p, hu, hp⟩ := any_post hd h tKeys bi.ctx (sub64 bi.size bi.headerSize)
    · match o, hp with
      | .ok (box, n), hp =>
        left
        rw [M.bind_ok hu]
        simp only
        refine ⟨{ bi with ctx := { bi.ctx with quickTimeKeysMetaEntryCount := box.sv.int "EntryCount" } }, ?_,
          ⟨rfl, rfl, rfl, rfl, rfl⟩, .inr ⟨⟨_, rfl, box, n, p, hu, rfl⟩, hc⟩⟩
        rw [M.bind_ok (seekToPayload_ok
          (bi := { bi with ctx := { bi.ctx with quickTimeKeysMetaEntryCount := box.sv.int "EntryCount" } }) hd h p)]
        rfl
      | .err e, _ =>
        right
        refine ⟨e, p, M.bind_err hu, hc, ?_⟩
        unfold BadPayload; rw [hc, hu]
      | .hang, hp => exact absurd hp.1 (lookup_not_trun std_keys (by decide) _)
  · next hc => exact .inl ⟨bi, rfl, ⟨rfl, rfl, rfl, rfl, rfl⟩, .inl ⟨rfl, hc⟩⟩

theorem liftP_run {α : Type} (m : PM α) (s : TSt S V) : (liftP m : TM S V α) s = ((m s.pos).1, { s with pos := (m s.pos).2 }) :=
  (rfl)

/-- the log only grows, by a described list -/
def Grows (d : Bytes) (r : Run) (s : TSt S V) (x : Out (List V) × TSt S V) : Prop :=
  ∃ L, x.2.log = s.log ++ L ∧ Tr d r L x.1

/-- outcome of a body as an outcome of `Tr` -/
def one {α : Type} : Out α → Out (List α)
  | .ok v => .ok [v]
  | .err e => .err e
  | .panic => .panic
  | .hang => .hang

/-- the variable `childrenOffset` is not set, or set to the end of the payload fields -/
def CoOk (d : Bytes) (bi : BoxInfo) (co : Nat) : Prop :=
  co = 0 ∨ ∃ n, PayloadN d bi n ∧ co = bi.offset + bi.headerSize + n

theorem payloadN_bound {bi : BoxInfo} (hd : d.length ≤ maxAlloc) (h : bi.offset + bi.headerSize ≤ d.length) {n : Nat}
    (hn : PayloadN d bi n) : bi.offset + bi.headerSize + n ≤ d.length ∧ n ≤ sub64 bi.size bi.headerSize := by
  obtain ⟨box, p, hu⟩ := hn
  have hp := payload_post hd h
  rw [hu] at hp
  exact ⟨hp.2.1 ▸ hp.2.2.1, hp.1⟩

theorem add64_end {bi : BoxInfo} (hd : d.length ≤ maxAlloc) {n : Nat} (h : bi.offset + bi.headerSize + n ≤ d.length) :
    add64 (add64 bi.offset bi.headerSize) n = bi.offset + bi.headerSize + n := by
  unfold add64
  simp only [U64, maxAlloc] at *
  omega

theorem expandStart_post {bi : BoxInfo} (hd : d.length ≤ maxAlloc) (h : bi.offset + bi.headerSize ≤ d.length)
    {co : Nat} (hco : CoOk d bi co) (pos : Nat) :
    (∃ n, PayloadN d bi n ∧ expandStart BoxMap.std d bi co pos =
      (.ok (bi.offset + bi.headerSize + n), bi.offset + bi.headerSize + n)) ∨
    (∃ e p, expandStart BoxMap.std d bi co pos = (.err e, p)) ∨
    (∃ p, expandStart BoxMap.std d bi co pos = (.hang, p) ∧ PayloadHangs d bi) := by
  unfold expandStart
  split
  · next hc =>
    have hp := payload_post hd h
    have he := readPayloadP_ok hd h pos
    cases hu : BoxMap.std.unmarshalAny d bi.type (sub64 bi.size bi.headerSize) bi.ctx (bi.offset + bi.headerSize) with
    | mk o p =>
      rw [hu] at hp he
      match o, hp with
      | .ok (box, n), hp =>
        left
        refine ⟨n, ⟨box, p, hu⟩, ?_⟩
        rw [M.bind_ok he]
        simp only [M.pure_run]
        have hn := payloadN_bound hd h ⟨box, p, hu⟩
        rw [add64_end hd hn.1, hp.2.1]
      | .err e, _ => exact .inr (.inl ⟨e, p, M.bind_err he⟩)
      | .hang, _ => exact .inr (.inr ⟨p, M.bind_hang he, by unfold PayloadHangs; rw [hu]⟩)
  · next hc =>
    rcases hco with hco | ⟨n, hn, rfl⟩
    · exact absurd hco hc
    · left
      refine ⟨n, hn, ?_⟩
      have hb := (payloadN_bound hd h hn).1
      have hs : seekStartP (bi.offset + bi.headerSize + n) pos =
          (.ok (bi.offset + bi.headerSize + n), bi.offset + bi.headerSize + n) := by
        unfold seekStartP
        have e : (bi.offset + bi.headerSize + n) % U64 = bi.offset + bi.headerSize + n := by
          simp only [U64, maxAlloc] at *; omega
        rw [e, if_neg (by simp only [maxAlloc] at hd; omega)]
      rw [M.bind_ok hs]
      rfl

theorem readDataP_returns (bi : BoxInfo) (w : Dest) (hd : d.length ≤ maxAlloc) (h : bi.offset + bi.headerSize ≤ d.length)
    (pos : Nat) : ∃ r p, readDataP d bi w pos = (.ok r, p) := by
  unfold readDataP
  rw [seekToPayload_ok hd h]
  simp only
  have hc : ∀ n p, (∃ b p', copyNP d n p = (.ok b, p')) ∨ ∃ e p', copyNP d n p = (.err e, p') := by
    intro n p
    unfold copyNP
    split
    · exact .inl ⟨_, _, rfl⟩
    · simp only
      split
      · exact .inr ⟨_, _, rfl⟩
      · exact .inl ⟨_, _, rfl⟩
  rcases hc (sub64 bi.size bi.headerSize) (bi.offset + bi.headerSize) with ⟨b, p', e⟩ | ⟨b, p', e⟩ <;> rw [e] <;>
    (split
     · split <;> exact ⟨_, _, rfl⟩
     · exact ⟨_, _, rfl⟩)

/-- every program of a handler -/
theorem runProg_tr (hd : d.length ≤ maxAlloc) {f : Nat} {path : List BoxType} {bi : BoxInfo} (hb : HeaderAt d bi)
    {children : Nat → P → TM S V (List V)}
    (hch : ∀ n p (st : TSt S V), PayloadN d bi n → st.pos = bi.offset + bi.headerSize + n →
      Grows d (.row f (some bi) (sub64 (add64 bi.offset bi.size) (bi.offset + bi.headerSize + n)) false path
        (childCtx bi) (bi.offset + bi.headerSize + n)) st (children (bi.offset + bi.headerSize + n) p st)) :
    ∀ (pr : Prog S P V) (co : Nat) (st : TSt S V), CoOk d bi co →
      ∃ L, (runProg BoxMap.std d path bi children pr co st).2.log = st.log ++ L ∧
        Tr d (.body f path bi) L (one (runProg BoxMap.std d path bi children pr co st).1) := by
  intro pr
  have hin := hb.inside
  induction pr with
  | ret v => intro co st _; exact ⟨[], by simp [runProg], .ret ..⟩
  | err e => intro co st _; exact ⟨[], by simp [runProg], .fail ..⟩
  | get k ih =>
    intro co st hco
    rw [runProg, M.bind_ok (M.get_run st)]
    exact ih _ _ _ hco
  | set s k ih =>
    intro co st hco
    rw [runProg, M.bind_ok (M.modify_run _ st)]
    exact ih _ { st with user := s } hco
  | stream mv k ih =>
    intro co st hco
    rw [runProg, M.bind_ok (M.get_run st), M.bind_ok (M.modify_run _ st)]
    exact ih _ _ { st with pos := mv st.pos } hco
  | readPayload k ih =>
    intro co st hco
    have he := readPayloadP_ok hd hin st.pos
    have hp := payload_post hd hin
    cases hu : BoxMap.std.unmarshalAny d bi.type (sub64 bi.size bi.headerSize) bi.ctx (bi.offset + bi.headerSize) with
    | mk o p =>
      rw [hu] at he hp
      match o, hp with
      | .ok (box, n), hp =>
        have e1 : (tryM (liftP (readPayloadP BoxMap.std d bi)) : TM S V _) st = (.ok (.ok (box, n)), { st with pos := p }) := by
          unfold tryM; rw [liftP_run, he]
        rw [runProg, M.bind_ok e1]
        simp only
        have hn := payloadN_bound hd hin ⟨box, p, hu⟩
        rw [add64_end hd hn.1]
        exact ih _ _ { st with pos := p } (.inr ⟨n, ⟨box, p, hu⟩, rfl⟩)
      | .err e, _ =>
        have e1 : (tryM (liftP (readPayloadP BoxMap.std d bi)) : TM S V _) st = (.ok (.error e), { st with pos := p }) := by
          unfold tryM; rw [liftP_run, he]
        rw [runProg, M.bind_ok e1]
        exact ih _ _ { st with pos := p } hco
      | .hang, _ =>
        have e1 : (tryM (liftP (readPayloadP BoxMap.std d bi)) : TM S V _) st = (.hang, { st with pos := p }) := by
          unfold tryM; rw [liftP_run, he]
        rw [runProg, M.bind_hang e1]
        exact ⟨[], by simp, .hang (by unfold PayloadHangs; rw [hu])⟩
  | readData w k ih =>
    intro co st hco
    obtain ⟨⟨r, b⟩, p, he⟩ := readDataP_returns bi w hd hin st.pos
    have e1 : (liftP (readDataP d bi w) : TM S V _) st = (.ok (r, b), { st with pos := p }) := by
      rw [liftP_run, he]
    rw [runProg, M.bind_ok e1]
    exact ih _ _ _ { st with pos := p } hco
  | expand q k ih =>
    intro co st hco
    rcases expandStart_post hd hin hco st.pos with ⟨n, hn, he⟩ | ⟨e, p, he⟩ | ⟨p, he, hh⟩
    · have e1 : (tryM (liftP (expandStart BoxMap.std d bi co)) : TM S V _) st =
          (.ok (.ok (bi.offset + bi.headerSize + n)), { st with pos := bi.offset + bi.headerSize + n }) := by
        unfold tryM; rw [liftP_run, he]
      rw [runProg, M.bind_ok e1]
      simp only
      let st1 : TSt S V := ⟨bi.offset + bi.headerSize + n, st.user, st.log ++ [.openBox path bi (bi.offset + bi.headerSize + n)]⟩
      have e2 : (emit (.openBox path bi (bi.offset + bi.headerSize + n)) : TM S V Unit)
          { st with pos := bi.offset + bi.headerSize + n } = (.ok (), st1) := rfl
      rw [M.bind_ok e2]
      obtain ⟨L, hL, hT⟩ := hch n q st1 hn rfl
      cases hc : children (bi.offset + bi.headerSize + n) q st1 with
      | mk o st2 =>
        rw [hc] at hL hT
        simp only at hL hT
        match o, hT with
        | .ok vs, hT =>
          have e3 : tryM (children (bi.offset + bi.headerSize + n) q) st1 = (.ok (.ok vs), st2) := by
            unfold tryM; rw [hc]
          rw [M.bind_ok e3]
          let st3 : TSt S V := { st2 with log := st2.log ++ [.closeBox path bi (.ok vs)] }
          have e4 : (emit (.closeBox path bi (.ok vs)) : TM S V Unit) st2 = (.ok (), st3) := rfl
          rw [M.bind_ok e4]
          obtain ⟨M', hM, hT'⟩ := ih (.ok vs) (bi.offset + bi.headerSize + n) st3 (.inr ⟨n, hn, rfl⟩)
          refine ⟨_, ?_, .expand hn hT hT'⟩
          rw [hM]
          simp [st3, hL, st1]
        | .err e, hT =>
          have e3 : tryM (children (bi.offset + bi.headerSize + n) q) st1 = (.ok (.error e), st2) := by
            unfold tryM; rw [hc]
          rw [M.bind_ok e3]
          let st3 : TSt S V := { st2 with log := st2.log ++ [.closeBox path bi (.error e)] }
          have e4 : (emit (.closeBox path bi (.error e)) : TM S V Unit) st2 = (.ok (), st3) := rfl
          rw [M.bind_ok e4]
          obtain ⟨M', hM, hT'⟩ := ih (.error e) (bi.offset + bi.headerSize + n) st3 (.inr ⟨n, hn, rfl⟩)
          refine ⟨_, ?_, .expandErr hn hT hT'⟩
          rw [hM]
          simp [st3, hL, st1]
        | .hang, hT =>
          have e3 : tryM (children (bi.offset + bi.headerSize + n) q) st1 = (.hang, st2) := by
            unfold tryM; rw [hc]
          rw [M.bind_hang e3]
          refine ⟨_, ?_, .expandCut hn hT⟩
          simp [hL, st1]
        | .panic, hT => exact absurd rfl (tr_no_panic hT)
    · have e1 : (tryM (liftP (expandStart BoxMap.std d bi co)) : TM S V _) st = (.ok (.error e), { st with pos := p }) := by
        unfold tryM; rw [liftP_run, he]
      rw [runProg, M.bind_ok e1]
      exact ih _ _ { st with pos := p } hco
    · have e1 : (tryM (liftP (expandStart BoxMap.std d bi co)) : TM S V _) st = (.hang, { st with pos := p }) := by
        unfold tryM; rw [liftP_run, he]
      rw [runProg, M.bind_hang e1]
      exact ⟨[], by simp, .hang hh⟩

/-- the two checks before the handler is called -/
theorem checks_post {bi : BoxInfo} (hd : d.length ≤ maxAlloc) (hb : HeaderAt d bi) (path : List BoxType) :
    (∃ bi1 bi2, checkFtyp BoxMap.std d path bi (bi.offset + bi.headerSize) = (.ok bi1, bi.offset + bi.headerSize) ∧
      checkKeys BoxMap.std d bi1 (bi.offset + bi.headerSize) = (.ok bi2, bi.offset + bi.headerSize) ∧
      SameBox bi bi2 ∧ HeaderAt d bi2 ∧ OwnCtx d path bi.ctx bi2) ∨
    (∃ e p, checkFtyp BoxMap.std d path bi (bi.offset + bi.headerSize) = (.err e, p) ∧ path = [] ∧ bi.type = tFtyp ∧
      BadPayload d bi.ctx bi.offset bi.size bi.headerSize bi.type e) ∨
    (∃ bi1 e p, checkFtyp BoxMap.std d path bi (bi.offset + bi.headerSize) = (.ok bi1, bi.offset + bi.headerSize) ∧
      checkKeys BoxMap.std d bi1 (bi.offset + bi.headerSize) = (.err e, p) ∧ bi.type = tKeys ∧
      ∃ ctx', BadPayload d ctx' bi.offset bi.size bi.headerSize bi.type e) := by
  rcases checkFtyp_post hd hb.inside path with ⟨bi1, e1, s1, f1, c1⟩ | h
  · have hin1 : bi1.offset + bi1.headerSize ≤ d.length := by rw [s1.offset, s1.hdr]; exact hb.inside
    have hk := checkKeys_post (bi := bi1) hd hin1
    rw [s1.offset, s1.hdr] at hk
    rcases hk with ⟨bi2, e2, s2, c2⟩ | ⟨e, p, e2, hk1, hk2⟩
    · left
      have s : SameBox bi bi2 := ⟨s2.offset.trans s1.offset, s2.size.trans s1.size, s2.hdr.trans s1.hdr,
        s2.type.trans s1.type, s2.eof.trans s1.eof⟩
      refine ⟨bi1, bi2, e1, e2, s, ⟨?_, ?_, ?_, ?_, ?_⟩, ?_⟩
      · rw [s.hdr]; exact hb.hdr
      · rw [s.offset, s.hdr]; exact hb.inside
      · rw [s.size]; exact hb.pos
      · rw [s.size]; exact hb.lt
      · rw [s.offset, s.size, s.hdr, s.type, s.eof]; exact hb.iso
      · have hq : ∀ c, FtypQt d c bi2 ↔ FtypQt d c bi := by
          intro c; unfold FtypQt; rw [s.offset, s.size, s.hdr]
        have hkc : ∀ c x, KeysCount d c bi1 x ↔ KeysCount d c bi2 x := by
          intro c x; unfold KeysCount; rw [s2.offset, s2.size, s2.hdr]
        have hok : path = [] → bi2.type = tFtyp → FtypOk d bi.ctx bi2 := by
          rw [s.type]
          unfold FtypOk
          rw [s.offset, s.size, s.hdr]
          exact f1
        have ft : tFtyp ≠ tKeys := by decide
        rcases c1 with ⟨h1, h1'⟩ | ⟨h1, h1'⟩
        · rcases c2 with ⟨h2, h2'⟩ | ⟨⟨c, h2, h2'⟩, h2''⟩
          · have h3 : bi2.ctx = bi.ctx := h2.trans h1
            rw [s1.type] at h2'
            refine ⟨by rw [h3], by rw [h3], by rw [h3], by rw [h3], by rw [h3], ?_, hok, fun _ => by rw [h3], ?_⟩
            · rw [h3, hq, s.type]; exact ⟨.inl, fun h => h.resolve_right h1'⟩
            · rw [s.type]; intro h; exact absurd h h2'
          · rw [h1] at h2 h2'
            rw [s1.type] at h2''
            refine ⟨by rw [h2], by rw [h2], by rw [h2], by rw [h2], by rw [h2], ?_, hok, ?_, ?_⟩
            · rw [h2, hq, s.type]; exact ⟨.inl, fun h => h.resolve_right h1'⟩
            · rw [s.type]; intro h; exact absurd h2'' h
            · intro _
              rw [h2]
              exact (hkc _ _).1 h2'
        · rcases c2 with ⟨h2, h2'⟩ | ⟨⟨c, h2, h2'⟩, h2''⟩
          · rw [h1] at h2
            rw [s1.type] at h2'
            refine ⟨by rw [h2], by rw [h2], by rw [h2], by rw [h2], by rw [h2], ?_, hok, fun _ => by rw [h2], ?_⟩
            · rw [h2, hq, s.type]; exact ⟨fun _ => .inr h1', fun _ => rfl⟩
            · rw [s.type]; intro h; exact absurd h h2'
          · exact absurd (h1'.2.1.symm.trans (s1.type.symm.trans h2'')) ft
    · rw [s1.size, s1.type] at hk2
      exact .inr (.inr ⟨bi1, e, p, e1, e2, s1.type ▸ hk1, _, hk2⟩)
  · exact .inr (.inl h)

/-- the box and its handler -/
theorem fromInternal_tr (hd : d.length ≤ maxAlloc) (h : Handler S P V) {f : Nat}
    {rec : BoxInfo → Nat → List BoxType → Ctx → P → TM S V (List V)}
    (hrec : ∀ (par : BoxInfo) total path ctx p (st : TSt S V), st.pos ≤ d.length →
      Grows d (.row f (some par) total false path ctx st.pos) st (rec par total path ctx p st))
    (parent : Option BoxInfo) {bi : BoxInfo} (hb : HeaderAt d bi) (path : List BoxType) (p : P) (st : TSt S V) :
    match fromInternal BoxMap.std d h rec parent bi path p st with
    | (.ok (v, bi'), st') => SameBox bi bi' ∧ HeaderAt d bi' ∧ OwnCtx d path bi.ctx bi' ∧ st'.pos = (bi'.offset + bi'.size) % U64 ∧
        ∃ L, st'.log = st.log ++ .enter parent (path ++ [bi'.type]) bi' :: (L ++ [.leave parent (path ++ [bi'.type]) bi' (.ok v)]) ∧
          Tr d (.body f (path ++ [bi'.type]) bi') L (.ok [v])
    | (.err e, st') => (st'.log = st.log ∧ (path = [] ∧ bi.type = tFtyp ∨ bi.type = tKeys) ∧
          ∃ ctx', BadPayload d ctx' bi.offset bi.size bi.headerSize bi.type e) ∨ ∃ bi', SameBox bi bi' ∧ HeaderAt d bi' ∧ OwnCtx d path bi.ctx bi' ∧
        ∃ L r, st'.log = st.log ++ .enter parent (path ++ [bi'.type]) bi' :: (L ++ [.leave parent (path ++ [bi'.type]) bi' r]) ∧
          ((r = .error e ∧ Tr d (.body f (path ++ [bi'.type]) bi') L (.err e)) ∨
            ∃ v, r = .ok v ∧ Tr d (.body f (path ++ [bi'.type]) bi') L (.ok [v]) ∧ e = .negativeSeek ∧
              2 ^ 63 ≤ (bi'.offset + bi'.size) % U64)
    | (.panic, _) => False
    | (.hang, st') => ∃ bi', SameBox bi bi' ∧ HeaderAt d bi' ∧ OwnCtx d path bi.ctx bi' ∧
        ∃ L, st'.log = st.log ++ .enter parent (path ++ [bi'.type]) bi' :: L ∧
          Tr d (.body f (path ++ [bi'.type]) bi') L .hang := by
  unfold fromInternal
  have e0 : (liftP bi.seekToPayload : TM S V Nat) st =
      (.ok (bi.offset + bi.headerSize), { st with pos := bi.offset + bi.headerSize }) := by
    rw [liftP_run, seekToPayload_ok hd hb.inside]
  rw [M.bind_ok e0]
  rcases checks_post hd hb path with ⟨bi1, bi2, e1, e2, s2, hb2, ho2⟩ | ⟨e, p', e1, hx1, hx2, hx3⟩ | ⟨bi1, e, p', e1, e2, hx1, hx2⟩
  · have e1' : (liftP (checkFtyp BoxMap.std d path bi) : TM S V BoxInfo) { st with pos := bi.offset + bi.headerSize } =
        (.ok bi1, { st with pos := bi.offset + bi.headerSize }) := by rw [liftP_run, e1]
    have e2' : (liftP (checkKeys BoxMap.std d bi1) : TM S V BoxInfo) { st with pos := bi.offset + bi.headerSize } =
        (.ok bi2, { st with pos := bi.offset + bi.headerSize }) := by rw [liftP_run, e2]
    rw [M.bind_ok e1', M.bind_ok e2']
    let st1 : TSt S V := ⟨bi.offset + bi.headerSize, st.user, st.log ++ [.enter parent (path ++ [bi2.type]) bi2]⟩
    have e3 : (emit (.enter parent (path ++ [bi2.type]) bi2) : TM S V Unit) { st with pos := bi.offset + bi.headerSize } =
        (.ok (), st1) := rfl
    rw [M.bind_ok e3]
    have hch : ∀ n p (st : TSt S V), PayloadN d bi2 n → st.pos = bi2.offset + bi2.headerSize + n →
        Grows d (.row f (some bi2) (sub64 (add64 bi2.offset bi2.size) (bi2.offset + bi2.headerSize + n)) false
          (path ++ [bi2.type]) (childCtx bi2) (bi2.offset + bi2.headerSize + n)) st
          ((fun co p => rec bi2 (sub64 (add64 bi2.offset bi2.size) co) (path ++ [bi2.type]) (childCtx bi2) p)
            (bi2.offset + bi2.headerSize + n) p st) := by
      intro n p st hn hp
      have := hrec bi2 (sub64 (add64 bi2.offset bi2.size) (bi2.offset + bi2.headerSize + n)) (path ++ [bi2.type])
        (childCtx bi2) p st (by rw [hp]; exact (payloadN_bound hd hb2.inside hn).1)
      rw [hp] at this
      exact this
    obtain ⟨L, hL, hT⟩ := runProg_tr (f := f) (path := path ++ [bi2.type]) (children := fun co p => rec bi2 (sub64 (add64 bi2.offset bi2.size) co) (path ++ [bi2.type]) (childCtx bi2) p) hd hb2 hch (h ⟨p, bi2, path ++ [bi2.type]⟩) 0 st1 (.inl rfl)
    cases hr : runProg BoxMap.std d (path ++ [bi2.type]) bi2
        (fun co p => rec bi2 (sub64 (add64 bi2.offset bi2.size) co) (path ++ [bi2.type]) (childCtx bi2) p)
        (h ⟨p, bi2, path ++ [bi2.type]⟩) 0 st1 with
    | mk o st2 =>
      rw [hr] at hL hT
      simp only at hL hT
      match o, hT with
      | .ok v, hT =>
        have e4 : tryM (runProg BoxMap.std d (path ++ [bi2.type]) bi2
            (fun co p => rec bi2 (sub64 (add64 bi2.offset bi2.size) co) (path ++ [bi2.type]) (childCtx bi2) p)
            (h ⟨p, bi2, path ++ [bi2.type]⟩) 0) st1 = (.ok (.ok v), st2) := by unfold tryM; rw [hr]
        rw [M.bind_ok e4]
        let st3 : TSt S V := { st2 with log := st2.log ++ [.leave parent (path ++ [bi2.type]) bi2 (.ok v)] }
        have e5 : (emit (.leave parent (path ++ [bi2.type]) bi2 (.ok v)) : TM S V Unit) st2 = (.ok (), st3) := rfl
        rw [M.bind_ok e5]
        have e6 : (ofExcept (.ok v) : TM S V V) st3 = (.ok v, st3) := rfl
        rw [M.bind_ok e6]
        have hlog : st3.log = st.log ++ .enter parent (path ++ [bi2.type]) bi2 ::
            (L ++ [.leave parent (path ++ [bi2.type]) bi2 (.ok v)]) := by simp [st3, hL, st1]
        have em : add64 bi2.offset bi2.size % U64 = (bi2.offset + bi2.size) % U64 := by
          unfold add64; rw [Nat.mod_mod]
        by_cases hneg : 2 ^ 63 ≤ (bi2.offset + bi2.size) % U64
        · have e7 : (liftP bi2.seekToEnd : TM S V Nat) st3 = (.err .negativeSeek, st3) := by
            rw [liftP_run]
            unfold BoxInfo.seekToEnd seekStartP
            rw [em, if_pos hneg]
          rw [M.bind_err e7]
          exact .inr ⟨bi2, s2, hb2, ho2, L, .ok v, hlog, .inr ⟨v, rfl, hT, rfl, hneg⟩⟩
        · have e7 : (liftP bi2.seekToEnd : TM S V Nat) st3 =
              (.ok ((bi2.offset + bi2.size) % U64), { st3 with pos := (bi2.offset + bi2.size) % U64 }) := by
            rw [liftP_run]
            unfold BoxInfo.seekToEnd seekStartP
            rw [em, if_neg hneg]
          rw [M.bind_ok e7]
          exact ⟨s2, hb2, ho2, rfl, L, hlog, hT⟩
      | .err e, hT =>
        have e4 : tryM (runProg BoxMap.std d (path ++ [bi2.type]) bi2
            (fun co p => rec bi2 (sub64 (add64 bi2.offset bi2.size) co) (path ++ [bi2.type]) (childCtx bi2) p)
            (h ⟨p, bi2, path ++ [bi2.type]⟩) 0) st1 = (.ok (.error e), st2) := by unfold tryM; rw [hr]
        rw [M.bind_ok e4]
        let st3 : TSt S V := { st2 with log := st2.log ++ [.leave parent (path ++ [bi2.type]) bi2 (.error e)] }
        have e5 : (emit (.leave parent (path ++ [bi2.type]) bi2 (.error e)) : TM S V Unit) st2 = (.ok (), st3) := rfl
        rw [M.bind_ok e5]
        have e6 : (ofExcept (.error e) : TM S V V) st3 = (.err e, st3) := rfl
        rw [M.bind_err e6]
        exact .inr ⟨bi2, s2, hb2, ho2, L, .error e, by simp [st3, hL, st1], .inl ⟨rfl, hT⟩⟩
      | .hang, hT =>
        have e4 : tryM (runProg BoxMap.std d (path ++ [bi2.type]) bi2
            (fun co p => rec bi2 (sub64 (add64 bi2.offset bi2.size) co) (path ++ [bi2.type]) (childCtx bi2) p)
            (h ⟨p, bi2, path ++ [bi2.type]⟩) 0) st1 = (.hang, st2) := by unfold tryM; rw [hr]
        rw [M.bind_hang e4]
        exact ⟨bi2, s2, hb2, ho2, L, by simp [hL, st1], hT⟩
      | .panic, hT => exact absurd rfl (tr_no_panic hT)
  · have e1' : (liftP (checkFtyp BoxMap.std d path bi) : TM S V BoxInfo) { st with pos := bi.offset + bi.headerSize } =
        (.err e, { st with pos := p' }) := by rw [liftP_run, e1]
    rw [M.bind_err e1']
    exact .inl ⟨rfl, .inl ⟨hx1, hx2⟩, _, hx3⟩
  · have e1' : (liftP (checkFtyp BoxMap.std d path bi) : TM S V BoxInfo) { st with pos := bi.offset + bi.headerSize } =
        (.ok bi1, { st with pos := bi.offset + bi.headerSize }) := by rw [liftP_run, e1]
    have e2' : (liftP (checkKeys BoxMap.std d bi1) : TM S V BoxInfo) { st with pos := bi.offset + bi.headerSize } =
        (.err e, { st with pos := p' }) := by rw [liftP_run, e2]
    rw [M.bind_ok e1', M.bind_err e2']
    exact .inl ⟨rfl, .inr hx1, hx2⟩

theorem readBoxInfo_header (hd : d.length ≤ maxAlloc) (pos : Nat) (ctx : Ctx) :
    (∃ bi, readBoxInfo d pos = (.ok bi, pos + bi.headerSize) ∧ bi.offset = pos ∧ HeaderAt d { bi with ctx := ctx }) ∨
    (∃ e p, readBoxInfo d pos = (.err e, p)) := by
  rcases readBoxInfo_post hd pos with ⟨bi, h1, h2, h3, h4, h5, h6, h7, h8⟩ | ⟨e, p, h1, _⟩
  · exact .inl ⟨bi, h1, h2, h3, by simp only; omega, h5, h6, by simp only; rw [h2]; exact h8⟩
  · exact .inr ⟨e, p, h1⟩

/-- Every run of `readBoxStructure` is described by `Tr`. -/
theorem readStructure_tr (hd : d.length ≤ maxAlloc) (h : Handler S P V) : ∀ (f : Nat) (parent : Option BoxInfo)
    (total : Nat) (isRoot : Bool) (path : List BoxType) (ctx : Ctx) (p : P) (st : TSt S V),
    Grows d (.row f parent total isRoot path ctx st.pos) st
      (readStructure BoxMap.std d h f parent total isRoot path ctx p st) := by
  intro f
  induction f with
  | zero =>
    intro parent total isRoot path ctx p st
    exact ⟨[], by simp [readStructure], .fuel ..⟩
  | succ f ih =>
    intro parent total isRoot path ctx p st
    rw [readStructure]
    split
    · next hc =>
      rcases readBoxInfo_header hd st.pos ctx with ⟨bi, he, ho, hb⟩ | ⟨e, p', he⟩
      · have e1 : (tryM (liftP (readBoxInfo d)) : TM S V _) st = (.ok (.ok bi), { st with pos := st.pos + bi.headerSize }) := by
          unfold tryM; rw [liftP_run, he]
        rw [M.bind_ok e1]
        simp only
        split
        · next hs =>
          have hr : isRoot = false := by simpa using hs.1
          have h8 : 8 ≤ total := by rcases hc with h | h; exact absurd h hs.1; exact h
          exact ⟨[], by simp [M.fail], .over (.large hr h8 he hs.2)⟩
        · next hs =>
          have hroom : isRoot = true ∨ 8 ≤ total := hc
          have hfit : isRoot = true ∨ bi.size ≤ total := by
            cases isRoot with
            | true => exact .inl rfl
            | false => exact .inr (Nat.le_of_not_lt fun h => hs ⟨by simp, h⟩)
          have hf := fromInternal_tr hd h (f := f)
            (rec := fun par total path ctx p => readStructure BoxMap.std d h f (some par) total false path ctx p)
            (fun par total path ctx p st _ => ih (some par) total false path ctx p st) parent hb path p
            { st with pos := st.pos + bi.headerSize }
          have hBox : ∀ bi', SameBox { bi with ctx := ctx } bi' → HeaderAt d bi' → OwnCtx d path ctx bi' →
              BoxAt d total isRoot path ctx st.pos bi' := by
            intro bi' s hb' ho'
            refine ⟨s.offset.trans ho, hb', ho', ?_⟩
            have hsz : bi'.size = bi.size := s.size
            cases isRoot with
            | true => exact .inl rfl
            | false =>
              right
              simp only [Bool.false_eq_true, false_or, smallHeaderSize] at hc
              refine ⟨hc, ?_⟩
              rw [hsz]
              exact Nat.le_of_not_lt fun h => hs ⟨by simp, h⟩
          cases hr : fromInternal BoxMap.std d h
              (fun par total path ctx p => readStructure BoxMap.std d h f (some par) total false path ctx p)
              parent { bi with ctx := ctx } path p { st with pos := st.pos + bi.headerSize } with
          | mk o st' =>
            rw [hr] at hf
            match o, hf with
            | .ok (v, bi'), hf =>
              obtain ⟨s, hb', ho', hp', L, hL, hT⟩ := hf
              rw [M.bind_ok hr]
              simp only
              obtain ⟨L', hL', hT'⟩ := ih parent (sub64 total bi'.size) isRoot path (nextCtx ctx bi') p st'
              rw [hp'] at hT'
              cases hr' : readStructure BoxMap.std d h f parent (sub64 total bi'.size) isRoot path (nextCtx ctx bi') p st' with
              | mk o' st'' =>
                rw [hr'] at hL' hT'
                have hN := Tr.next (hBox bi' s hb' ho') hT hT' (parent := parent)
                have hlog : st''.log = st.log ++ (.enter parent (path ++ [bi'.type]) bi' ::
                    (L ++ .leave parent (path ++ [bi'.type]) bi' (.ok v) :: L')) := by
                  simp only at hL'
                  rw [hL', hL]
                  simp
                match o', hN with
                | .ok vs, hN => rw [M.bind_ok hr']; exact ⟨_, hlog, hN⟩
                | .err e, hN => rw [M.bind_err hr']; exact ⟨_, hlog, hN⟩
                | .hang, hN => rw [M.bind_hang hr']; exact ⟨_, hlog, hN⟩
                | .panic, hN => exact absurd rfl (tr_no_panic hN)
            | .err e, hf =>
              rw [M.bind_err hr]
              rcases hf with hf | ⟨bi', s, hb', ho', L, r, hL, hT⟩
              · obtain ⟨hf, ht, ctx', hbad⟩ := hf
                simp only at hf ht hbad
                rw [ho] at hbad
                exact ⟨[], by simp [hf], .over (.payload hroom he hfit ht hbad)⟩
              · rcases hT with ⟨rfl, hT⟩ | ⟨v, rfl, hT, rfl, hneg⟩
                · exact ⟨_, hL, .stop (hBox bi' s hb' ho') hT⟩
                · exact ⟨_, hL, .noEnd (hBox bi' s hb' ho') hT hneg⟩
            | .hang, hf =>
              rw [M.bind_hang hr]
              obtain ⟨bi', s, hb', ho', L, hL, hT⟩ := hf
              exact ⟨_, hL, .cut (hBox bi' s hb' ho') hT⟩
      · have e1 : (tryM (liftP (readBoxInfo d)) : TM S V _) st = (.ok (.error e), { st with pos := p' }) := by
          unfold tryM; rw [liftP_run, he]
        rw [M.bind_ok e1]
        simp only
        split
        · next h1 =>
          obtain ⟨h1, rfl⟩ := h1
          exact ⟨[], by simp, .over (.eof h1 he)⟩
        · next h1 => exact ⟨[], by simp [M.fail], .over (.header hc he h1)⟩
    · next hc =>
      have hr : isRoot = false := by
        cases isRoot with
        | true => exact absurd (.inl rfl) hc
        | false => rfl
      have h8 : total < 8 := Nat.lt_of_not_le fun h => hc (.inr h)
      split
      · next h1 => exact ⟨[], by simp [M.fail], .over (.short hr h8 h1.1 (by simpa using h1.2))⟩
      · next h1 =>
        refine ⟨[], by simp, .over (.full hr h8 ?_)⟩
        by_cases h0 : total = 0
        · exact .inl h0
        · exact .inr (Classical.byContradiction fun h => h1 ⟨h0, h⟩)

/-- `ReadBoxStructure` from the beginning of the file. -/
theorem readBoxStructure_tr (hd : d.length ≤ maxAlloc) (h : Handler S P V) (f : Nat) (p : P) (st : TSt S V) :
    Grows d (.row f none 0 true [] {} 0) st (readBoxStructure BoxMap.std d h f p st) := by
  unfold readBoxStructure
  have e1 : (liftP (seekStartP 0) : TM S V Nat) st = (.ok 0, { st with pos := 0 }) := rfl
  rw [M.bind_ok e1]
  exact readStructure_tr hd h f none 0 true [] {} p { st with pos := 0 }

end
end Mp4
