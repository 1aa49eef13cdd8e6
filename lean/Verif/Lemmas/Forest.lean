import Verif.Spec.Forest
import Verif.Lemmas.Forward
import Verif.Lemmas.Fuel

/-! # Traversal of well-formed files -/

namespace Mp4

open Mp4.Props

section
variable {S P V : Type} {d : Bytes}

theorem enters_append (l m : List (Ev V)) : enters (l ++ m) = enters l ++ enters m := by
  induction l with
  | nil => rfl
  | cons e l ih => cases e <;> simp [enters, ih]

theorem placed_header (hd : d.length ≤ maxAlloc) {isRoot : Bool} {path : List BoxType} {ctx : Ctx} {pos total : Nat}
    {bi : BoxInfo} (h : Forest.Placed d isRoot path ctx pos total bi) :
    readBoxInfo d pos = (.ok { bi with ctx := {} }, pos + bi.headerSize) ∧ HeaderAt d bi := by
  rcases readBoxInfo_post hd pos with ⟨b, h1, h2, h3, h4, h5, h6, h7, h8⟩ | ⟨e, p, _, h1⟩
  · rw [h.header] at h8
    simp only [Header.box.injEq] at h8
    obtain ⟨e1, e2, e3, e4⟩ := h8
    have hb : b = { bi with ctx := {} } := by
      have h0 := h.offset
      cases b; cases bi
      simp_all
    subst hb
    refine ⟨h1, h3, ?_, h5, h6, ?_⟩
    · rw [h.offset]; exact h4
    · rw [h.offset]; exact h.header
  · exact absurd h.header (h1 _ _ _ _)

theorem ctx_ext {x y : Ctx} (h1 : x.isQuickTimeCompatible = y.isQuickTimeCompatible)
    (h2 : x.quickTimeKeysMetaEntryCount = y.quickTimeKeysMetaEntryCount) (h3 : x.underWave = y.underWave)
    (h4 : x.underIlst = y.underIlst) (h5 : x.underIlstMeta = y.underIlstMeta)
    (h6 : x.underIlstFreeMeta = y.underIlstFreeMeta) (h7 : x.underUdta = y.underUdta) : x = y := by
  cases x; cases y
  simp_all

theorem own_unique {path : List BoxType} {ctx : Ctx} {a b : BoxInfo} (hs : SameBox a b) (ha : OwnCtx d path ctx a)
    (hb : OwnCtx d path ctx b) : a = b := by
  have hq : a.ctx.isQuickTimeCompatible = b.ctx.isQuickTimeCompatible := by
    rw [Bool.eq_iff_iff, ha.qt, hb.qt]
    unfold FtypQt
    rw [hs.type, hs.offset, hs.size, hs.hdr]
  have hk : a.ctx.quickTimeKeysMetaEntryCount = b.ctx.quickTimeKeysMetaEntryCount := by
    by_cases ht : a.type = tKeys
    · obtain ⟨x, n, p, h1, h2⟩ := ha.keys' ht
      obtain ⟨x', n', p', h1', h2'⟩ := hb.keys' (hs.type.trans ht)
      rw [hs.offset, hs.size, hs.hdr, h1] at h1'
      cases h1'
      exact h2.symm.trans h2'
    · rw [ha.keys ht, hb.keys (by rw [hs.type]; exact ht)]
  have hctx : a.ctx = b.ctx := ctx_ext hq hk (ha.wave.trans hb.wave.symm) (ha.ilst.trans hb.ilst.symm)
    (ha.ilstMeta.trans hb.ilstMeta.symm) (ha.ilstFree.trans hb.ilstFree.symm) (ha.udta.trans hb.udta.symm)
  obtain ⟨e1, e2, e3, e4, e5⟩ := hs
  cases a; cases b
  simp_all

/-- the checks before the handler is called give the box its context -/
theorem placed_checks (hd : d.length ≤ maxAlloc) {isRoot : Bool} {path : List BoxType} {ctx : Ctx} {pos total : Nat}
    {bi : BoxInfo} (h : Forest.Placed d isRoot path ctx pos total bi) : ∃ bi1,
    checkFtyp BoxMap.std d path { bi with ctx := ctx } (bi.offset + bi.headerSize) = (.ok bi1, bi.offset + bi.headerSize) ∧
    checkKeys BoxMap.std d bi1 (bi.offset + bi.headerSize) = (.ok bi, bi.offset + bi.headerSize) := by
  obtain ⟨-, hb⟩ := placed_header hd h
  have hb' : HeaderAt d { bi with ctx := ctx } := ⟨hb.hdr, hb.inside, hb.pos, hb.lt, hb.iso⟩
  rcases checks_post hd hb' path with ⟨bi1, bi2, e1, e2, hs, -, ho⟩ | ⟨e, p, -, h1, h2, h3⟩ | ⟨bi1, e, p, h0, h1, h2, h3⟩
  · have : bi2 = bi := own_unique ⟨hs.offset.symm, hs.size.symm, hs.hdr.symm, hs.type.symm, hs.eof.symm⟩ ho h.own
    subst this
    exact ⟨bi1, e1, e2⟩
  · exfalso
    obtain ⟨x, n, p, hu⟩ := h.own.ftyp h1 h2
    unfold BadPayload at h3
    simp only at h2 h3
    rw [h2, hu] at h3
    cases h3
  · exfalso
    have ht : bi.type ≠ tFtyp := by
      simp only at h2
      rw [h2]
      decide
    rw [checkFtyp_skip (bi := { bi with ctx := ctx }) (.inr ht)] at h0
    cases h0
    have hk := checkKeys_post (bi := { bi with ctx := ctx }) hd hb.inside
    simp only at hk h1
    rw [h1] at hk
    rcases hk with ⟨b, hk, -⟩ | ⟨e', p', -, -, hk⟩
    · cases hk
    · obtain ⟨x, n, p, hu, -⟩ := h.own.keys' h2
      unfold BadPayload at hk
      simp only at h2 hk
      rw [h2, hu] at hk
      cases hk

theorem wf_root_total {ctx : Ctx} {path : List BoxType} {pos t : Nat} (t' : Nat) {F : Forest}
    (h : F.WF d true path ctx pos t) : F.WF d true path ctx pos t' := by
  induction F generalizing ctx pos t t' with
  | nil => exact h
  | leaf bi rest ih =>
    obtain ⟨h1, h2⟩ := h
    exact ⟨⟨h1.offset, h1.header, h1.whole, h1.inFile, .inl rfl, h1.own⟩, ih _ h2⟩
  | node bi n kids rest _ ih =>
    obtain ⟨h1, h2, h3, h4⟩ := h
    exact ⟨⟨h1.offset, h1.header, h1.whole, h1.inFile, .inl rfl, h1.own⟩, h2, h3, ih _ h4⟩

/-- the handler `walker` does not expand the box -/
theorem walker_ret {note : Handle P → S → S} {want : Handle P → Bool} {sub : Handle P → P} {val : Handle P → List V → V}
    {path : List BoxType} {bi : BoxInfo} {children : Nat → P → TM S V (List V)} {hd : Handle P} (hw : want hd = false)
    (st : TSt S V) :
    runProg BoxMap.std d path bi children (walker note want sub val hd) 0 st =
      (.ok (val hd []), { st with user := note hd st.user }) := by
  unfold walker
  rw [runProg, M.bind_ok (M.get_run st)]
  rw [runProg, M.bind_ok (M.modify_run _ st), hw]
  rfl

/-- it expands it -/
theorem walker_expand (hl : d.length ≤ maxAlloc) {note : Handle P → S → S} {want : Handle P → Bool} {sub : Handle P → P}
    {val : Handle P → List V → V} {path : List BoxType} {bi : BoxInfo} {children : Nat → P → TM S V (List V)} {hd : Handle P}
    (hin : bi.offset + bi.headerSize ≤ d.length) {n : Nat} (hn : PayloadN d bi n) (hw : want hd = true)
    {st st2 : TSt S V} {vs : List V}
    (hc : children (bi.offset + bi.headerSize + n) (sub hd) ⟨bi.offset + bi.headerSize + n, note hd st.user,
      st.log ++ [.openBox path bi (bi.offset + bi.headerSize + n)]⟩ = (.ok vs, st2)) :
    runProg BoxMap.std d path bi children (walker note want sub val hd) 0 st =
      (.ok (val hd vs), ⟨st2.pos, st2.user, st2.log ++ [.closeBox path bi (.ok vs)]⟩) := by
  unfold walker
  rw [runProg, M.bind_ok (M.get_run st)]
  rw [runProg, M.bind_ok (M.modify_run _ st), hw, if_pos rfl]
  exact runProg_expand hl hin hn (st := { st with user := note hd st.user }) hc

theorem map_ok {α β : Type} {σ : Type} {m : M σ α} {f : α → β} {s s' : σ} {a : α} (h : m s = (.ok a, s')) :
    (m >>= fun x => pure (f x)) s = (.ok (f a), s') := by
  rw [M.bind_ok h]; rfl

/-- what the traversal of a row does -/
def WalkPost (note : Handle P → S → S) (want : Handle P → Bool) (sub : Handle P → P) (val : Handle P → List V → V)
    (parent : Option BoxInfo) (path : List BoxType) (p : P) (F : Forest) (st : TSt S V) (r : Out (List V) × TSt S V) : Prop :=
  ∃ pos' L, r = (.ok (F.values want sub val path p),
      ⟨pos', (F.visited want sub parent path p).foldl (fun s x => note x.2 s) st.user, st.log ++ L⟩) ∧
    enters L = (F.visited want sub parent path p).map (fun x => (x.1, x.2.path, x.2.info))

theorem rest_wf {isRoot : Bool} {total : Nat} {bi : BoxInfo} (hi : isRoot = true ∨ bi.size ≤ total) (ht : total < U64)
    {F : Forest} {path : List BoxType} {ctx : Ctx} {pos : Nat} (h : F.WF d isRoot path ctx pos (total - bi.size)) :
    F.WF d isRoot path ctx pos (sub64 total bi.size) ∧ sub64 total bi.size < U64 := by
  refine ⟨?_, Nat.mod_lt _ (by decide)⟩
  rcases hi with rfl | hi
  · exact wf_root_total _ h
  · have e : sub64 total bi.size = total - bi.size := by
      unfold sub64
      simp only [U64] at *
      omega
    rw [e]
    exact h

/-- a box of a well-formed row, when its handler succeeds -/
theorem placed_step (hd : d.length ≤ maxAlloc) {h : Handler S P V} {f : Nat} {parent : Option BoxInfo} {total : Nat}
    {isRoot : Bool} {path : List BoxType} {ctx : Ctx} {p : P} {st : TSt S V} {bi : BoxInfo}
    (hp : Forest.Placed d isRoot path ctx st.pos total bi) {v : V} {st2 : TSt S V}
    (hr : runProg BoxMap.std d (path ++ [bi.type]) bi
      (fun co p => readStructure BoxMap.std d h f (some bi) (sub64 (add64 bi.offset bi.size) co) false (path ++ [bi.type])
        (childCtx bi) p)
      (h ⟨p, bi, path ++ [bi.type]⟩) 0 (entered { st with pos := st.pos + bi.headerSize } parent (path ++ [bi.type]) bi) =
        (.ok v, st2)) :
    readStructure BoxMap.std d h (f + 1) parent total isRoot path ctx p st =
      ((readStructure BoxMap.std d h f parent (sub64 total bi.size) isRoot path (nextCtx ctx bi) p) >>=
          fun vs => pure (v :: vs))
        ⟨st.pos + bi.size, st2.user, st2.log ++ [.leave parent (path ++ [bi.type]) bi (.ok v)]⟩ := by
  obtain ⟨hh, hb⟩ := placed_header hd hp
  obtain ⟨bi1, c1, c2⟩ := placed_checks hd hp
  have hf := fromInternal_run (h := h)
    (rec := fun par total path ctx p => readStructure BoxMap.std d h f (some par) total false path ctx p)
    hd (parent := parent) (p := p) (st := { st with pos := st.pos + bi.headerSize }) (bi := { bi with ctx := ctx }) hb.inside
    c1 c2 rfl hr
  have hend : (bi.offset + bi.size) % U64 = st.pos + bi.size := by
    have := hp.inFile
    rw [hp.offset]
    simp only [maxAlloc, U64] at *
    omega
  simp only at hf
  rw [hend, if_pos (by have := hp.inFile; simp only [maxAlloc] at hd; omega)] at hf
  have h8 : isRoot = true ∨ 8 ≤ total := by
    rcases hp.inParent with h1 | h1
    · exact .inl h1
    · have := hb.hdr
      have := hp.whole
      right
      omega
  rw [readStructure_step h8 hh hp.inParent hf]

theorem walk_run (hd : d.length ≤ maxAlloc) (note : Handle P → S → S) (want : Handle P → Bool) (sub : Handle P → P)
    (val : Handle P → List V → V) : ∀ (F : Forest) (f : Nat) (parent : Option BoxInfo) (total : Nat) (isRoot : Bool)
    (path : List BoxType) (ctx : Ctx) (p : P) (st : TSt S V), F.WF d isRoot path ctx st.pos total →
    F.Expandable want sub path p → F.count < f → total < U64 →
    WalkPost note want sub val parent path p F st
      (readStructure BoxMap.std d (walker note want sub val) f parent total isRoot path ctx p st) := by
  intro F
  induction F with
  | nil =>
    intro f parent total isRoot path ctx p st hwf hex hf ht
    obtain ⟨f, rfl⟩ : ∃ g, f = g + 1 := ⟨f - 1, by simp only [Forest.count] at hf; omega⟩
    simp only [Forest.WF] at hwf
    rw [readStructure]
    cases isRoot with
    | true =>
      rw [if_pos rfl] at hwf
      have hi := readBoxInfo_iso d st.pos (by simp only [maxAlloc] at hd; omega)
      rw [hwf, List.drop_length] at hi
      have hi : ∃ q, readBoxInfo d st.pos = (.err .eof, q) := by rw [hwf]; exact hi
      obtain ⟨q, hi⟩ := hi
      have e1 : (tryM (liftP (readBoxInfo d)) : TM S V _) st = (.ok (.error .eof), { st with pos := q }) := by
        unfold tryM; rw [liftP_run, hi]
      rw [if_pos (.inl rfl), M.bind_ok e1]
      exact ⟨q, [], by simp [Forest.values, Forest.visited], rfl⟩
    | false =>
      rw [if_neg (by simp)] at hwf
      rw [if_neg (by simp [smallHeaderSize]; omega), if_neg (by
        rintro ⟨h1, h2⟩
        rcases hwf with h | h
        · exact h1 h
        · exact h2 h.2)]
      exact ⟨st.pos, [], by simp [Forest.values, Forest.visited], rfl⟩
  | leaf bi rest ih =>
    intro f parent total isRoot path ctx p st hwf hex hf ht
    obtain ⟨f, rfl⟩ : ∃ g, f = g + 1 := ⟨f - 1, by simp only [Forest.count] at hf; omega⟩
    simp only [Forest.count] at hf
    obtain ⟨hp, hwf⟩ := hwf
    obtain ⟨hw, hex⟩ := hex
    have hr := walker_ret (d := d) (note := note) (sub := sub) (val := val) (path := path ++ [bi.type]) (bi := bi)
      (children := fun co p => readStructure BoxMap.std d (walker note want sub val) f (some bi)
        (sub64 (add64 bi.offset bi.size) co) false (path ++ [bi.type]) (childCtx bi) p) hw
      (entered { st with pos := st.pos + bi.headerSize } parent (path ++ [bi.type]) bi)
    obtain ⟨hwf', hlt⟩ := rest_wf hp.inParent ht hwf
    obtain ⟨q, L, e, hL⟩ := ih f parent (sub64 total bi.size) isRoot path (nextCtx ctx bi) p
      ⟨st.pos + bi.size, note ⟨p, bi, path ++ [bi.type]⟩ st.user, st.log ++ [.enter parent (path ++ [bi.type]) bi] ++
        [.leave parent (path ++ [bi.type]) bi (.ok (val ⟨p, bi, path ++ [bi.type]⟩ []))]⟩ hwf' hex (by omega) hlt
    refine ⟨q, .enter parent (path ++ [bi.type]) bi ::
      .leave parent (path ++ [bi.type]) bi (.ok (val ⟨p, bi, path ++ [bi.type]⟩ [])) :: L,
      ((placed_step hd hp hr).trans (map_ok (f := fun vs => _ :: vs) e)).trans ?_, ?_⟩
    · simp [Forest.values, Forest.visited]
    · simp [enters, Forest.visited, hL]
  | node bi n kids rest ihk ih =>
    intro f parent total isRoot path ctx p st hwf hex hf ht
    obtain ⟨f, rfl⟩ : ∃ g, f = g + 1 := ⟨f - 1, by simp only [Forest.count] at hf; omega⟩
    simp only [Forest.count] at hf
    obtain ⟨hp, hn, hwk, hwf⟩ := hwf
    obtain ⟨hxk, hex⟩ := hex
    obtain ⟨hwf', hlt⟩ := rest_wf hp.inParent ht hwf
    cases hw : want ⟨p, bi, path ++ [bi.type]⟩ with
    | false =>
      have hr := walker_ret (d := d) (note := note) (sub := sub) (val := val) (path := path ++ [bi.type]) (bi := bi)
        (children := fun co p => readStructure BoxMap.std d (walker note want sub val) f (some bi)
          (sub64 (add64 bi.offset bi.size) co) false (path ++ [bi.type]) (childCtx bi) p) hw
        (entered { st with pos := st.pos + bi.headerSize } parent (path ++ [bi.type]) bi)
      obtain ⟨q, L, e, hL⟩ := ih f parent (sub64 total bi.size) isRoot path (nextCtx ctx bi) p
        ⟨st.pos + bi.size, note ⟨p, bi, path ++ [bi.type]⟩ st.user, st.log ++ [.enter parent (path ++ [bi.type]) bi] ++
          [.leave parent (path ++ [bi.type]) bi (.ok (val ⟨p, bi, path ++ [bi.type]⟩ []))]⟩ hwf' hex (by omega) hlt
      refine ⟨q, .enter parent (path ++ [bi.type]) bi ::
        .leave parent (path ++ [bi.type]) bi (.ok (val ⟨p, bi, path ++ [bi.type]⟩ [])) :: L,
        ((placed_step hd hp hr).trans (map_ok (f := fun vs => _ :: vs) e)).trans ?_, ?_⟩
      · simp [Forest.values, Forest.visited, hw]
      · simp [enters, Forest.visited, hL, hw]
    | true =>
      obtain ⟨hh, hb⟩ := placed_header hd hp
      have hin : bi.offset + bi.headerSize + n ≤ bi.offset + bi.size ∧ bi.offset + bi.size ≤ d.length := by
        refine ⟨?_, by rw [hp.offset]; exact hp.inFile⟩
        have h1 := payloadN_bound hd hb.inside hn
        have h2 := hp.whole
        have h3 := hb.lt
        have h4 : sub64 bi.size bi.headerSize = bi.size - bi.headerSize := by
          unfold sub64
          simp only [U64] at *
          omega
        omega
      have htot : sub64 (add64 bi.offset bi.size) (bi.offset + bi.headerSize + n) = bi.size - bi.headerSize - n := by
        unfold sub64 add64
        simp only [maxAlloc, U64] at *
        omega
      obtain ⟨q1, L1, e1, hL1⟩ := ihk f (some bi)
        (sub64 (add64 bi.offset bi.size) (bi.offset + bi.headerSize + n)) false (path ++ [bi.type]) (childCtx bi)
        (sub ⟨p, bi, path ++ [bi.type]⟩)
        ⟨bi.offset + bi.headerSize + n, note ⟨p, bi, path ++ [bi.type]⟩ st.user,
          st.log ++ [.enter parent (path ++ [bi.type]) bi] ++
            [.openBox (path ++ [bi.type]) bi (bi.offset + bi.headerSize + n)]⟩
        (by
          rw [htot]
          simp only
          rw [hp.offset]
          exact hwk) (hxk hw) (by omega) (by unfold sub64; exact Nat.mod_lt _ (by decide))
      have hr := walker_expand hd (note := note) (want := want) (sub := sub) (val := val) (path := path ++ [bi.type])
        (children := fun co p => readStructure BoxMap.std d (walker note want sub val) f (some bi)
          (sub64 (add64 bi.offset bi.size) co) false (path ++ [bi.type]) (childCtx bi) p)
        (st := entered { st with pos := st.pos + bi.headerSize } parent (path ++ [bi.type]) bi) hb.inside hn hw e1
      obtain ⟨q, L, e, hL⟩ := ih f parent (sub64 total bi.size) isRoot path (nextCtx ctx bi) p
        ⟨st.pos + bi.size, _, _⟩ hwf' hex (by omega) hlt
      refine ⟨q, .enter parent (path ++ [bi.type]) bi :: .openBox (path ++ [bi.type]) bi (bi.offset + bi.headerSize + n) ::
        (L1 ++ .closeBox (path ++ [bi.type]) bi (.ok (kids.values want sub val (path ++ [bi.type]) (sub ⟨p, bi, path ++ [bi.type]⟩))) ::
          .leave parent (path ++ [bi.type]) bi (.ok (val ⟨p, bi, path ++ [bi.type]⟩
            (kids.values want sub val (path ++ [bi.type]) (sub ⟨p, bi, path ++ [bi.type]⟩)))) :: L),
        ((placed_step hd hp hr).trans (map_ok (f := fun vs => _ :: vs) e)).trans ?_, ?_⟩
      · simp [Forest.values, Forest.visited, hw]
      · simp [enters, enters_append, Forest.visited, hL, hL1, hw]

end
end Mp4
