import Verif.Lemmas.Cut
import Verif.Spec.Cut
import Verif.Lemmas.SoundUnmarshal

/-!
# The beginning of a well-formed file: what lies in it is seen
-/

namespace Mp4.Cut

open Mp4 Mp4.Props Mp4.Spec

variable {S P V : Type} {d : Bytes} {n : Nat}

theorem agree_back (hn : n ≤ d.length) (hd : d.length ≤ maxAlloc) : Agree n d (d.take n) :=
  ⟨by rw [List.take_take, Nat.min_self], hn, by rw [List.length_take]; omega, by rw [List.length_take]; simp only [maxAlloc, U64] at *; omega⟩

/-- What is decoded in the whole without going beyond the part is decoded in the part. -/
theorem any_back (hn : n ≤ d.length) (hd : d.length ≤ maxAlloc) {t : BoxType} {ps : Nat} {ctx : Ctx} {pos p : Nat} {r : BoxVal × Nat}
    (h : BoxMap.std.unmarshalAny d t ps ctx pos = (.ok r, p)) (hp : p ≤ n)
    (hm : pos + 4 ≤ n ∨ ∀ bd, BoxMap.std.getBoxDef t ctx = some bd → bd.metaHook = false) :
    BoxMap.std.unmarshalAny (d.take n) t ps ctx pos = (.ok r, p) := by
  rcases hx : BoxMap.std.new t ctx with e | box
  · rw [Src.unmarshalAny_error hx] at h
    cases h
  · rw [Src.unmarshalAny_ok hx] at h ⊢
    have hbd : box.bd ∈ Cat.allDefs ∧ BoxMap.std.getBoxDef t ctx = some box.bd := by
      unfold BoxMap.new at hx
      cases hb : BoxMap.std.getBoxDef t ctx with
      | none => rw [hb] at hx; cases hx
      | some bd =>
        rw [hb] at hx
        injection hx with hx
        subst hx
        exact ⟨std_mem hb, rfl⟩
    obtain ⟨a, q, e, h⟩ := bind_ok_inv h
    have hq : q = p := by cases h; rfl
    rw [M.bind_ok (box_sim hbd.1 (agree_back hn hd) ctx ps box.sv (fun hmh => ?_) e (by omega))]
    · exact h
    · rcases hm with hm | hm
      · exact .inl hm
      · rw [hm _ hbd.2] at hmh; cases hmh

theorem not_meta {t : BoxType} {name : String} (hs : (BoxMap.std t).map (fun bd => (bd.goName, bd.target.isNone)) = [(name, true)]) (hn : name ≠ "Meta") (ctx : Ctx) :
    ∀ bd, BoxMap.std.getBoxDef t ctx = some bd → bd.metaHook = false := by
  intro bd h
  obtain ⟨bd', h1, h2⟩ := lookup_single hs ctx
  rw [h] at h1
  cases h1
  cases hm : bd.metaHook with
  | false => rfl
  | true =>
    have := bd_meta bd (std_mem h) hm
    subst this
    exact absurd h2.symm hn

theorem ftyp_not_meta (ctx : Ctx) : ∀ bd, BoxMap.std.getBoxDef tFtyp ctx = some bd → bd.metaHook = false :=
  not_meta (name := "Ftyp") (by decide +kernel) (by decide) ctx

theorem keys_not_meta (ctx : Ctx) : ∀ bd, BoxMap.std.getBoxDef tKeys ctx = some bd → bd.metaHook = false :=
  not_meta (name := "Keys") (by decide +kernel) (by decide) ctx

theorem header_back (l : Bytes) (k s h : Nat) (t : BoxType) (he : isoHeader l = .box s h t false) (hk : h ≤ k) : isoHeader (l.take k) = .box s h t false := by
  match l with
  | s0 :: s1 :: s2 :: s3 :: t0 :: t1 :: t2 :: t3 :: rest =>
    have h8 : 8 ≤ h := by
      unfold isoHeader at he
      simp only at he
      split at he
      · cases he
      · split at he
        · unfold isoLarge at he
          split at he
          · split at he
            · cases he
            · cases he; omega
          · cases he
        · cases he; omega
    obtain ⟨j, rfl⟩ : ∃ j, k = 8 + j := ⟨k - 8, by omega⟩
    rw [show 8 + j = j + 8 by omega]
    simp only [List.take_succ_cons]
    unfold isoHeader at he ⊢
    simp only at he ⊢
    split at he
    · cases he
    · next h0 =>
      rw [if_neg h0]
      split at he
      · next h1 =>
        rw [if_pos h1]
        match rest with
        | l0 :: l1 :: l2 :: l3 :: l4 :: l5 :: l6 :: l7 :: rest =>
          have h16 : h = 16 := by
            unfold isoLarge at he
            simp only at he
            split at he
            · cases he
            · cases he; rfl
          obtain ⟨i, rfl⟩ : ∃ i, j = i + 8 := ⟨j - 8, by omega⟩
          simp only [List.take_succ_cons]
          unfold isoLarge at he ⊢
          exact he
        | [] | [_] | [_, _] | [_, _, _] | [_, _, _, _] | [_, _, _, _, _] | [_, _, _, _, _, _] | [_, _, _, _, _, _, _] => unfold isoLarge at he; cases he
      · next h1 =>
        rw [if_neg h1]
        exact he
  | [] | [_] | [_, _] | [_, _, _] | [_, _, _, _] | [_, _, _, _, _] | [_, _, _, _, _, _] | [_, _, _, _, _, _, _] => unfold isoHeader at he; cases he

theorem own_back (hn : n ≤ d.length) (hd : d.length ≤ maxAlloc) {path : List BoxType} {ctx : Ctx} {bi : BoxInfo} (h : OwnCtx d path ctx bi)
    (hb : bi.offset + bi.headerSize ≤ n) (hs : bi.headerSize ≤ bi.size) (hlt : bi.size < U64) (ha : NeedsAll path bi → bi.offset + bi.size ≤ n) :
    OwnCtx (d.take n) path ctx bi := by
  have hl : (d.take n).length = n := by rw [List.length_take]; omega
  have hps : sub64 bi.size bi.headerSize = bi.size - bi.headerSize := by unfold sub64; simp only [U64] at *; omega
  have back : ∀ {t : BoxType} {r : BoxVal × Nat} {p : Nat}, (t = tFtyp ∨ t = tKeys) → bi.offset + bi.size ≤ n →
      BoxMap.std.unmarshalAny d t (sub64 bi.size bi.headerSize) ctx (bi.offset + bi.headerSize) = (.ok r, p) →
      BoxMap.std.unmarshalAny (d.take n) t (sub64 bi.size bi.headerSize) ctx (bi.offset + bi.headerSize) = (.ok r, p) := by
    intro t r p ht he hu
    have hp := unmarshalAny_post hd (pos := bi.offset + bi.headerSize) (by omega) t ctx (sub64 bi.size bi.headerSize)
    rw [hu] at hp
    refine any_back hn hd hu ?_ (.inr ?_)
    · have := hp.1; have := hp.2.1; omega
    · rcases ht with rfl | rfl
      · exact ftyp_not_meta ctx
      · exact keys_not_meta ctx
  have forth : ∀ {t : BoxType} {r : BoxVal × Nat} {p : Nat},
      BoxMap.std.unmarshalAny (d.take n) t (sub64 bi.size bi.headerSize) ctx (bi.offset + bi.headerSize) = (.ok r, p) →
      BoxMap.std.unmarshalAny d t (sub64 bi.size bi.headerSize) ctx (bi.offset + bi.headerSize) = (.ok r, p) := by
    intro t r p hu
    rcases pcut_any hn hd hb t (sub64 bi.size bi.headerSize) ctx with e | ⟨x, e⟩ | e
    · rw [← e]; exact hu
    · rw [hu] at e; cases e
    · rw [hu] at e; cases e
  refine ⟨h.wave, h.ilst, h.ilstMeta, h.ilstFree, h.udta, ?_, ?_, h.keys, ?_⟩
  · rw [h.qt]
    constructor
    · rintro (h1 | ⟨h1, h2, box, m, p, h3, h4⟩)
      · exact .inl h1
      · exact .inr ⟨h1, h2, box, m, p, back (.inl rfl) (ha (.inl ⟨h1, h2⟩)) h3, h4⟩
    · rintro (h1 | ⟨h1, h2, box, m, p, h3, h4⟩)
      · exact .inl h1
      · exact .inr ⟨h1, h2, box, m, p, forth h3, h4⟩
  · intro h1 h2
    obtain ⟨box, m, p, h3⟩ := h.ftyp h1 h2
    exact ⟨box, m, p, back (.inl rfl) (ha (.inl ⟨h1, h2⟩)) h3⟩
  · intro h1
    obtain ⟨box, m, p, h3, h4⟩ := h.keys' h1
    exact ⟨box, m, p, back (.inr rfl) (ha (.inr h1)) h3, h4⟩

theorem placed_back (hn : n ≤ d.length) (hd : d.length ≤ maxAlloc) {isRoot : Bool} {path : List BoxType} {ctx : Ctx} {pos total : Nat} {bi : BoxInfo}
    (h : Forest.Placed d isRoot path ctx pos total bi) (ho : bi.extendToEOF = false) (hb : pos + bi.size ≤ n) : Forest.Placed (d.take n) isRoot path ctx pos total bi := by
  obtain ⟨-, hh⟩ := placed_header hd h
  have h0 := h.offset
  have hw := h.whole
  refine ⟨h.offset, ?_, h.whole, by rw [List.length_take]; omega, h.inParent, own_back hn hd h.own (by omega) h.whole hh.lt (fun _ => by omega)⟩
  rw [List.drop_take, ho]
  exact header_back _ _ _ _ _ (ho ▸ h.header) (by omega)

theorem payload_back (hn : n ≤ d.length) (hd : d.length ≤ maxAlloc) {bi : BoxInfo} {m : Nat} (h : PayloadN d bi m) (hin : bi.offset + bi.headerSize ≤ n)
    (hb : bi.offset + bi.headerSize + m + 4 ≤ n) : PayloadN (d.take n) bi m := by
  obtain ⟨box, p, hu⟩ := h
  have hp := payload_post hd (bi := bi) (by omega)
  rw [hu] at hp
  have := hp.2.1
  exact ⟨box, p, any_back hn hd hu (by omega) (.inl (by omega))⟩

/-- the bound on the fields of a placed box -/
theorem placed_fields (hd : d.length ≤ maxAlloc) {isRoot : Bool} {path : List BoxType} {ctx : Ctx} {pos total : Nat} {bi : BoxInfo}
    (h : Forest.Placed d isRoot path ctx pos total bi) {m : Nat} (hm : PayloadN d bi m) : bi.headerSize + m ≤ bi.size ∧ 8 ≤ bi.headerSize := by
  obtain ⟨-, hb⟩ := placed_header hd h
  have h1 := (payloadN_bound hd hb.inside hm).2
  have h2 := h.whole
  have h3 := hb.lt
  have h4 : sub64 bi.size bi.headerSize = bi.size - bi.headerSize := by
    unfold sub64
    simp only [U64] at *
    omega
  have h5 := hb.hdr
  omega

/-- a row inside a box that ends (a little) before the end of the part -/
theorem wf_back (hn : n ≤ d.length) (hd : d.length ≤ maxAlloc) : ∀ (F : Forest) (path : List BoxType) (ctx : Ctx) (pos total : Nat),
    F.WF d false path ctx pos total → F.Plain path → pos + total + 4 ≤ n → F.WF (d.take n) false path ctx pos total
  | .nil, _, _, _, _, h, _, _ => h
  | .leaf bi rest, path, ctx, pos, total, h, hp, hb => by
    obtain ⟨h1, h2⟩ := h
    have hs : bi.size ≤ total := h1.inParent.resolve_left (by simp)
    exact ⟨placed_back hn hd h1 hp.1 (by omega), wf_back hn hd rest _ _ _ _ h2 hp.2 (by omega)⟩
  | .node bi m kids rest, path, ctx, pos, total, h, hp, hb => by
    obtain ⟨h1, h2, h3, h4⟩ := h
    have hs : bi.size ≤ total := h1.inParent.resolve_left (by simp)
    have h0 := h1.offset
    have hf := placed_fields hd h1 h2
    exact ⟨placed_back hn hd h1 hp.1 (by omega), payload_back hn hd h2 (by omega) (by omega), wf_back hn hd kids _ _ _ _ h3 hp.2.2.1 (by omega),
      wf_back hn hd rest _ _ _ _ h4 hp.2.2.2 (by omega)⟩

/-- the boxes of a row begin where it begins, or later -/
theorem visited_later (hd : d.length ≤ maxAlloc) (want : Handle P → Bool) (sub : Handle P → P) : ∀ (F : Forest) (isRoot : Bool) (parent : Option BoxInfo) (path : List BoxType)
    (ctx : Ctx) (p : P) (pos total : Nat), F.WF d isRoot path ctx pos total → ∀ x ∈ F.visited want sub parent path p, pos ≤ x.2.info.offset ∧ 8 ≤ x.2.info.size
  | .nil, _, _, _, _, _, _, _, _, x, hx => by simp [Forest.visited] at hx
  | .leaf bi rest, isRoot, parent, path, ctx, p, pos, total, h, x, hx => by
    obtain ⟨h1, h2⟩ := h
    obtain ⟨-, hb⟩ := placed_header hd h1
    have h3 := hb.hdr
    have h4 := h1.whole
    have h5 := h1.offset
    simp only [Forest.visited, List.mem_cons] at hx
    rcases hx with rfl | hx
    · simp only; omega
    · have := visited_later hd want sub rest _ _ _ _ _ _ _ h2 x hx
      omega
  | .node bi m kids rest, isRoot, parent, path, ctx, p, pos, total, h, x, hx => by
    obtain ⟨h1, hm, hk, h2⟩ := h
    obtain ⟨-, hb⟩ := placed_header hd h1
    have h3 := hb.hdr
    have h4 := h1.whole
    have h5 := h1.offset
    simp only [Forest.visited, List.mem_cons, List.mem_append] at hx
    rcases hx with rfl | hx | hx
    · simp only; omega
    · split at hx
      · have := visited_later hd want sub kids _ _ _ _ _ _ _ hk x hx
        omega
      · cases hx
    · have := visited_later hd want sub rest _ _ _ _ _ _ _ h2 x hx
      omega

/-- a header that lies in the part -/
theorem header_short (hn : n ≤ d.length) (hd : d.length ≤ maxAlloc) {isRoot : Bool} {path : List BoxType} {ctx : Ctx} {pos total : Nat} {bi : BoxInfo}
    (h : Forest.Placed d isRoot path ctx pos total bi) (ho : bi.extendToEOF = false) (hb : pos + bi.headerSize ≤ n) :
    readBoxInfo (d.take n) pos = (.ok { bi with ctx := {} }, pos + bi.headerSize) ∧ HeaderAt (d.take n) bi := by
  have hl : (d.take n).length ≤ maxAlloc := by rw [List.length_take]; omega
  have hi : isoHeader ((d.take n).drop pos) = .box bi.size bi.headerSize bi.type bi.extendToEOF := by
    rw [List.drop_take, ho]
    exact header_back _ _ _ _ _ (ho ▸ h.header) (by omega)
  rcases readBoxInfo_post hl pos with ⟨b, h1, h2, h3, h4, h5, h6, h7, h8⟩ | ⟨e, p, _, h1⟩
  · rw [hi] at h8
    simp only [Header.box.injEq] at h8
    obtain ⟨e1, e2, e3, e4⟩ := h8
    have hb : b = { bi with ctx := {} } := by
      have h0 := h.offset
      cases b; cases bi
      simp_all
    subst hb
    refine ⟨h1, h3, ?_, h5, h6, ?_⟩
    · rw [h.offset]; exact h4
    · rw [h.offset]; exact hi
  · exact absurd hi (h1 _ _ _ _)

theorem checks_short (hn : n ≤ d.length) (hd : d.length ≤ maxAlloc) {isRoot : Bool} {path : List BoxType} {ctx : Ctx} {pos total : Nat} {bi : BoxInfo}
    (h : Forest.Placed d isRoot path ctx pos total bi) (ho : bi.extendToEOF = false) (hb : pos + bi.headerSize ≤ n) (ha : NeedsAll path bi → pos + bi.size ≤ n) : ∃ bi1,
    checkFtyp BoxMap.std (d.take n) path { bi with ctx := ctx } (bi.offset + bi.headerSize) = (.ok bi1, bi.offset + bi.headerSize) ∧
    checkKeys BoxMap.std (d.take n) bi1 (bi.offset + bi.headerSize) = (.ok bi, bi.offset + bi.headerSize) := by
  have hl : (d.take n).length ≤ maxAlloc := by rw [List.length_take]; omega
  obtain ⟨-, hh⟩ := header_short hn hd h ho hb
  have h0 := h.offset
  have own := own_back hn hd h.own (by omega) h.whole hh.lt (fun x => by have := ha x; omega)
  have hb' : HeaderAt (d.take n) { bi with ctx := ctx } := ⟨hh.hdr, hh.inside, hh.pos, hh.lt, hh.iso⟩
  rcases checks_post hl hb' path with ⟨bi1, bi2, e1, e2, hs, -, ho⟩ | ⟨e, p, -, h1, h2, h3⟩ | ⟨bi1, e, p, h0, h1, h2, h3⟩
  · have : bi2 = bi := own_unique ⟨hs.offset.symm, hs.size.symm, hs.hdr.symm, hs.type.symm, hs.eof.symm⟩ ho own
    subst this
    exact ⟨bi1, e1, e2⟩
  · exfalso
    obtain ⟨x, m, p, hu⟩ := own.ftyp h1 h2
    unfold BadPayload at h3
    simp only at h2 h3
    rw [h2, hu] at h3
    cases h3
  · exfalso
    have ht : bi.type ≠ tFtyp := by
      simp only at h2
      rw [h2]
      decide
    rw [checkFtyp_skip (bi := { bi with ctx := ctx }) (.inr ht)] at h0
    cases h0
    have hk := checkKeys_post (bi := { bi with ctx := ctx }) hl hh.inside
    simp only at hk h1
    rw [h1] at hk
    rcases hk with ⟨b, hk, -⟩ | ⟨e', p', -, -, hk⟩
    · cases hk
    · obtain ⟨x, m, p, hu, -⟩ := own.keys' h2
      unfold BadPayload at hk
      simp only at h2 hk
      rw [h2, hu] at hk
      cases hk

/-- what the handler of a box, whose header lies in the part, sees, is seen -/
theorem box_seen (hn : n ≤ d.length) (hd : d.length ≤ maxAlloc) {h : Handler S P V} {f : Nat} {parent : Option BoxInfo} {total : Nat}
    {isRoot : Bool} {path : List BoxType} {ctx : Ctx} {p : P} {st : TSt S V} {bi : BoxInfo}
    (hp : Forest.Placed d isRoot path ctx st.pos total bi) (ho : bi.extendToEOF = false) (hb : st.pos + bi.headerSize ≤ n) (ha : NeedsAll path bi → st.pos + bi.size ≤ n)
    {o : Out V} {st2 : TSt S V}
    (hr : runProg BoxMap.std (d.take n) (path ++ [bi.type]) bi
      (fun co p => readStructure BoxMap.std (d.take n) h f (some bi) (sub64 (add64 bi.offset bi.size) co) false (path ++ [bi.type]) (childCtx bi) p)
      (h ⟨p, bi, path ++ [bi.type]⟩) 0 (entered { st with pos := st.pos + bi.headerSize } parent (path ++ [bi.type]) bi) = (o, st2)) :
    ∀ y ∈ enters st2.log, y ∈ enters (readStructure BoxMap.std (d.take n) h (f + 1) parent total isRoot path ctx p st).2.log := by
  have hl : (d.take n).length ≤ maxAlloc := by rw [List.length_take]; omega
  obtain ⟨hh, hb'⟩ := header_short hn hd hp ho hb
  obtain ⟨bi1, c1, c2⟩ := checks_short hn hd hp ho hb ha
  have hf := fromInternal_run (h := h)
    (rec := fun par total path ctx p => readStructure BoxMap.std (d.take n) h f (some par) total false path ctx p)
    hl (parent := parent) (p := p) (st := { st with pos := st.pos + bi.headerSize }) (bi := { bi with ctx := ctx }) hb'.inside
    c1 c2 rfl hr
  have h8 : isRoot = true ∨ 8 ≤ total := by
    rcases hp.inParent with h1 | h1
    · exact .inl h1
    · have := hb'.hdr
      have := hp.whole
      right
      omega
  have hg : ∃ (o' : Out (V × BoxInfo)) (st3 : TSt S V) (L : List (Ev V)), fromInternal BoxMap.std (d.take n) h
      (fun par total path ctx p => readStructure BoxMap.std (d.take n) h f (some par) total false path ctx p)
      parent { bi with ctx := ctx } path p { st with pos := st.pos + bi.headerSize } = (o', st3) ∧ st3.log = st2.log ++ L := by
    rw [hf]
    cases o with
    | ok v =>
      simp only
      split
      · exact ⟨_, _, _, rfl, rfl⟩
      · exact ⟨_, _, _, rfl, rfl⟩
    | err e => exact ⟨_, _, _, rfl, rfl⟩
    | panic => exact ⟨_, _, [], rfl, (List.append_nil _).symm⟩
    | hang => exact ⟨_, _, [], rfl, (List.append_nil _).symm⟩
  obtain ⟨o', st3, L, e3, hL⟩ := hg
  intro y hy
  have hy3 : y ∈ enters st3.log := by rw [hL, enters_append]; exact List.mem_append.2 (.inl hy)
  rw [readStructure_step h8 hh hp.inParent e3]
  cases o' with
  | ok v =>
    obtain ⟨v, bi'⟩ := v
    simp only
    obtain ⟨L2, h2⟩ := grows_bind (grows_readStructure (d := d.take n) h f parent (sub64 total bi'.size) isRoot path (nextCtx ctx bi') p) (fun vs => grows_pure (v :: vs)) st3
    rw [h2, enters_append]
    exact List.mem_append.2 (.inl hy3)
  | err e => exact hy3
  | panic => exact hy3
  | hang => exact hy3

theorem expand_grows (hl : d.length ≤ maxAlloc) {note : Handle P → S → S} {want : Handle P → Bool} {sub : Handle P → P}
    {val : Handle P → List V → V} {path : List BoxType} {bi : BoxInfo} {children : Nat → P → TM S V (List V)} {hd : Handle P}
    (hin : bi.offset + bi.headerSize ≤ d.length) {m : Nat} (hm : PayloadN d bi m) (hw : want hd = true) (st : TSt S V) :
    ∃ L, (runProg BoxMap.std d path bi children (walker note want sub val hd) 0 st).2.log =
      (children (bi.offset + bi.headerSize + m) (sub hd) ⟨bi.offset + bi.headerSize + m, note hd st.user,
        st.log ++ [.openBox path bi (bi.offset + bi.headerSize + m)]⟩).2.log ++ L := by
  cases e : children (bi.offset + bi.headerSize + m) (sub hd) ⟨bi.offset + bi.headerSize + m, note hd st.user,
      st.log ++ [.openBox path bi (bi.offset + bi.headerSize + m)]⟩ with
  | mk o s =>
  have hx := runProg_expand hl (k := finish (val hd)) hin hm (st := { st with user := note hd st.user }) (q := sub hd) (children := children) (path := path) e
  unfold walker
  rw [runProg, M.bind_ok (M.get_run _)]
  rw [runProg, M.bind_ok (M.modify_run _ _), hw, if_pos rfl, hx]
  cases o with
  | ok vs => exact ⟨_, rfl⟩
  | err e => exact ⟨_, rfl⟩
  | panic => exact ⟨[], (List.append_nil _).symm⟩
  | hang => exact ⟨[], (List.append_nil _).symm⟩

/-- Every box that lies in the part is seen. -/
theorem row_seen (hn : n ≤ d.length) (hd : d.length ≤ maxAlloc) (note : Handle P → S → S) (want : Handle P → Bool) (sub : Handle P → P)
    (val : Handle P → List V → V) : ∀ (F : Forest) (f : Nat) (parent : Option BoxInfo) (total : Nat) (isRoot : Bool)
    (path : List BoxType) (ctx : Ctx) (p : P) (st : TSt S V), F.WF d isRoot path ctx st.pos total → F.Plain path →
    F.Expandable want sub path p → F.count < f → total < U64 →
    ∀ x ∈ F.visited want sub parent path p, x.2.info.offset + x.2.info.size ≤ n →
      (x.1, x.2.path, x.2.info) ∈ enters (readStructure BoxMap.std (d.take n) (walker note want sub val) f parent total isRoot path ctx p st).2.log := by
  have hl : (d.take n).length ≤ maxAlloc := by rw [List.length_take]; omega
  intro F
  induction F with
  | nil => intro f parent total isRoot path ctx p st hwf hpl hex hf ht x hx; simp [Forest.visited] at hx
  | leaf bi rest ih =>
    intro f parent total isRoot path ctx p st hwf hpl hex hf ht x hx hin
    obtain ⟨f, rfl⟩ : ∃ g, f = g + 1 := ⟨f - 1, by simp only [Forest.count] at hf; omega⟩
    simp only [Forest.count] at hf
    obtain ⟨hp, hwf⟩ := hwf
    obtain ⟨hw, hex⟩ := hex
    obtain ⟨ho, hpl⟩ := hpl
    have h0 := hp.offset
    have hwh := hp.whole
    have hr := walker_ret (d := d.take n) (note := note) (sub := sub) (val := val) (path := path ++ [bi.type]) (bi := bi)
      (children := fun co p => readStructure BoxMap.std (d.take n) (walker note want sub val) f (some bi)
        (sub64 (add64 bi.offset bi.size) co) false (path ++ [bi.type]) (childCtx bi) p) hw
      (entered { st with pos := st.pos + bi.headerSize } parent (path ++ [bi.type]) bi)
    simp only [Forest.visited, List.mem_cons] at hx
    rcases hx with rfl | hx
    · simp only at hin ⊢
      refine box_seen hn hd hp ho (by omega) (fun _ => by omega) hr _ ?_
      simp [entered, enters_append, enters]
    · have hlater := visited_later hd want sub rest _ _ _ _ _ _ _ hwf x hx
      obtain ⟨hwf', hlt⟩ := rest_wf hp.inParent ht hwf
      rw [placed_step hl (placed_back hn hd hp ho (by omega)) hr, M.bind_run]
      have := ih f parent (sub64 total bi.size) isRoot path (nextCtx ctx bi) p
        ⟨st.pos + bi.size, note ⟨p, bi, path ++ [bi.type]⟩ st.user, st.log ++ [.enter parent (path ++ [bi.type]) bi] ++
          [.leave parent (path ++ [bi.type]) bi (.ok (val ⟨p, bi, path ++ [bi.type]⟩ []))]⟩ hwf' hpl hex (by omega) hlt x hx hin
      simp only [entered] at this ⊢
      generalize readStructure BoxMap.std (d.take n) (walker note want sub val) f parent _ isRoot path _ p _ = y at this ⊢
      obtain ⟨o, s⟩ := y
      cases o <;> exact this
  | node bi m kids rest ihk ih =>
    intro f parent total isRoot path ctx p st hwf hpl hex hf ht x hx hin
    obtain ⟨f, rfl⟩ : ∃ g, f = g + 1 := ⟨f - 1, by simp only [Forest.count] at hf; omega⟩
    simp only [Forest.count] at hf
    obtain ⟨hp, hm, hwk, hwf⟩ := hwf
    obtain ⟨hxk, hex⟩ := hex
    obtain ⟨ho, hkn, hpk, hpl⟩ := hpl
    have h0 := hp.offset
    have hwh := hp.whole
    have hfl := placed_fields hd hp hm
    obtain ⟨hwf', hlt⟩ := rest_wf hp.inParent ht hwf
    have htot : sub64 (add64 bi.offset bi.size) (bi.offset + bi.headerSize + m) = bi.size - bi.headerSize - m := by
      have := hp.inFile
      unfold sub64 add64
      simp only [maxAlloc, U64] at *
      omega
    have hkt : sub64 (add64 bi.offset bi.size) (bi.offset + bi.headerSize + m) < U64 := by unfold sub64; exact Nat.mod_lt _ (by decide)
    simp only [Forest.visited, List.mem_cons, List.mem_append] at hx
    rcases hx with rfl | hx | hx
    · simp only at hin ⊢
      obtain ⟨L, hL⟩ := grows_runProg (d := d.take n) (S := S) (P := P) (V := V) BoxMap.std (path ++ [bi.type]) bi
        (ch := fun co p => readStructure BoxMap.std (d.take n) (walker note want sub val) f (some bi) (sub64 (add64 bi.offset bi.size) co) false (path ++ [bi.type]) (childCtx bi) p)
        (fun _ _ => grows_readStructure _ _ _ _ _ _ _ _) (walker note want sub val ⟨p, bi, path ++ [bi.type]⟩) 0 (entered { st with pos := st.pos + bi.headerSize } parent (path ++ [bi.type]) bi)
      refine box_seen hn hd hp ho (by omega) (fun _ => by omega) rfl _ ?_
      rw [hL]
      simp [entered, enters_append, enters]
    · cases hw : want ⟨p, bi, path ++ [bi.type]⟩ with
      | false => rw [hw] at hx; simp at hx
      | true =>
        rw [hw, if_pos rfl] at hx
        have hlater := visited_later hd want sub kids _ _ _ _ _ _ _ hwk x hx
        have hna : NeedsAll path bi → st.pos + bi.size ≤ n := by
          intro h
          rw [hkn h] at hx
          simp [Forest.visited] at hx
        have hseen := ihk f (some bi)
          (sub64 (add64 bi.offset bi.size) (bi.offset + bi.headerSize + m)) false (path ++ [bi.type]) (childCtx bi)
          (sub ⟨p, bi, path ++ [bi.type]⟩)
          ⟨bi.offset + bi.headerSize + m, note ⟨p, bi, path ++ [bi.type]⟩ st.user,
            st.log ++ [.enter parent (path ++ [bi.type]) bi] ++
              [.openBox (path ++ [bi.type]) bi (bi.offset + bi.headerSize + m)]⟩
          (by
            rw [htot]
            simp only
            rw [hp.offset]
            exact hwk) hpk (hxk hw) (by omega) hkt x hx hin
        refine box_seen hn hd hp ho (by omega) hna rfl _ ?_
        have hpn := payload_back hn hd hm (by omega) (by omega)
        obtain ⟨L, hL⟩ := expand_grows hl (note := note) (want := want) (sub := sub) (val := val) (path := path ++ [bi.type]) (bi := bi)
          (children := fun co p => readStructure BoxMap.std (d.take n) (walker note want sub val) f (some bi) (sub64 (add64 bi.offset bi.size) co) false (path ++ [bi.type]) (childCtx bi) p)
          (by rw [List.length_take]; omega) hpn hw (entered { st with pos := st.pos + bi.headerSize } parent (path ++ [bi.type]) bi)
        rw [hL, enters_append]
        exact List.mem_append.2 (.inl hseen)
    · have hlater := visited_later hd want sub rest _ _ _ _ _ _ _ hwf x hx
      have hpb := placed_back hn hd hp ho (by omega)
      have hrun : ∃ v st2, runProg BoxMap.std (d.take n) (path ++ [bi.type]) bi
          (fun co p => readStructure BoxMap.std (d.take n) (walker note want sub val) f (some bi) (sub64 (add64 bi.offset bi.size) co) false (path ++ [bi.type]) (childCtx bi) p)
          (walker note want sub val ⟨p, bi, path ++ [bi.type]⟩) 0 (entered { st with pos := st.pos + bi.headerSize } parent (path ++ [bi.type]) bi) = (.ok v, st2) := by
        cases hw : want ⟨p, bi, path ++ [bi.type]⟩ with
        | false => exact ⟨_, _, walker_ret hw _⟩
        | true =>
          obtain ⟨q1, L1, e1, -⟩ := walk_run hl note want sub val kids f (some bi)
            (sub64 (add64 bi.offset bi.size) (bi.offset + bi.headerSize + m)) false (path ++ [bi.type]) (childCtx bi)
            (sub ⟨p, bi, path ++ [bi.type]⟩)
            ⟨bi.offset + bi.headerSize + m, note ⟨p, bi, path ++ [bi.type]⟩ st.user,
              st.log ++ [.enter parent (path ++ [bi.type]) bi] ++
                [.openBox (path ++ [bi.type]) bi (bi.offset + bi.headerSize + m)]⟩
            (by
              rw [htot]
              simp only
              rw [hp.offset]
              exact wf_back hn hd kids _ _ _ _ hwk hpk (by omega)) (hxk hw) (by omega) hkt
          exact ⟨_, _, walker_expand hl (by rw [List.length_take]; omega) (payload_back hn hd hm (by omega) (by omega)) hw e1⟩
      obtain ⟨v, st2, hr⟩ := hrun
      rw [placed_step hl hpb hr, M.bind_run]
      have := ih f parent (sub64 total bi.size) isRoot path (nextCtx ctx bi) p
        ⟨st.pos + bi.size, st2.user, st2.log ++ [.leave parent (path ++ [bi.type]) bi (.ok v)]⟩ hwf' hpl hex (by omega) hlt x hx hin
      generalize readStructure BoxMap.std (d.take n) (walker note want sub val) f parent _ isRoot path _ p _ = y at this ⊢
      obtain ⟨o, s⟩ := y
      cases o <;> exact this

end Mp4.Cut
