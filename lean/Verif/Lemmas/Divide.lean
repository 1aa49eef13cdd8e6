import Verif.Model.Divide
import Verif.Lemmas.Success
import Verif.Lemmas.EditParts
import Verif.Lemmas.Ftyp

/-! # The handler of `mp4tool divide` -/

namespace Mp4.Tool

open Mp4 Mp4.Props

variable {d : Bytes}

/-! ## The box `moov` has no fields -/

theorem bd_moov : ∀ bd ∈ Cat.allDefs, bd.goName = "Moov" → bd = Cat.bdMoov := by
  unfold Cat.allDefs
  simp only [List.forall_mem_cons]
  repeat' apply And.intro
  all_goals first
    | (intro _; rfl)
    | (intro _; trivial)
    | (intro h; exact absurd h (by decide))
    | (intro x hx; exact absurd hx (by simp))

theorem std_moov (ctx : Ctx) : BoxMap.std.getBoxDef tMoov ctx = some Cat.bdMoov := by
  obtain ⟨bd, h1, h2⟩ := lookup_single (name := "Moov") (m := BoxMap.std) (t := tMoov) (by decide +kernel) ctx
  rw [h1, bd_moov bd (std_mem h1) h2]

theorem moov_body (d : Bytes) (ctx : Ctx) (ps : Nat) (sv : SV) (sn : Nat) : unmarshalBody Cat.bdMoov d ctx ps sv sn = (.ok (0, sv), sn) := by
  unfold unmarshalBody
  have e : ∀ st, unmarshalFields (Cat.bdMoov.uenv d ctx ps) true (some Cat.bdMoov.cfo) Cat.bdMoov.fields sv st = (.ok sv, st) := fun st => by
    have : Cat.bdMoov.fields = .nil := rfl
    rw [this, unmarshalFields]
    rfl
  rw [e]
  simp only
  rw [if_neg (by simp), if_neg (by simp)]
  rfl

theorem moov_payload {bi : BoxInfo} (ht : bi.type = tMoov) {n : Nat} (h : PayloadN d bi n) : n = 0 := by
  obtain ⟨box, p, h⟩ := h
  rw [ht] at h
  have h := unmarshalAny_ok_inv (std_moov bi.ctx) h
  unfold unmarshalBox at h
  rw [if_neg (by decide), moov_body] at h
  simp only [Prod.mk.injEq, Out.ok.injEq] at h
  exact h.1.1.symm

/-! ## Files of tracks that do not share any -/

/-- no two tracks have the same ID or the same kind -/
def Sep (l : List DTrack) : Prop := l.Pairwise fun a b => a.id ≠ b.id ∧ a.kind ≠ b.kind

theorem Sep.filter {l : List DTrack} (h : Sep l) (p : DTrack → Bool) : Sep (l.filter p) := List.Pairwise.sublist List.filter_sublist h

theorem upd_same {α β : Type} [DecidableEq α] (f : α → β) (a : α) (b : β) : upd f a b a = b := by simp [upd]
theorem upd_other {α β : Type} [DecidableEq α] (f : α → β) {a x : α} (b : β) (h : x ≠ a) : upd f a b x = f x := by simp [upd, h]

/-- Everything except the initialization segments is the same. -/
structure Same (s s2 : DivSt) : Prop where
  curr : s2.curr = s.curr
  abort : s2.abort = s.abort
  segs : s2.segs = s.segs
  segAt : s2.segAt = s.segAt
  durs : s2.durs = s.durs
  rates : s2.rates = s.rates

theorem Same.refl (s : DivSt) : Same s s := ⟨rfl, rfl, rfl, rfl, rfl, rfl⟩
theorem Same.trans {a b c : DivSt} (h : Same a b) (h2 : Same b c) : Same a c :=
  ⟨h2.curr.trans h.curr, h2.abort.trans h.abort, h2.segs.trans h.segs, h2.segAt.trans h.segAt, h2.durs.trans h.durs,
    h2.rates.trans h.rates⟩

/-- The initialization segments of the tracks `l` have become these, and the handles are at these positions; the others are as they were. -/
structure Inits (l : List DTrack) (c : DTrack → Bytes) (p : DTrack → Nat) (s s2 : DivSt) : Prop where
  mine : ∀ t ∈ l, s2.inits t.kind = c t ∧ s2.initPos t.id = p t
  others : ∀ u : DTrack, (∀ t ∈ l, u.id ≠ t.id ∧ u.kind ≠ t.kind) → s2.inits u.kind = s.inits u.kind ∧ s2.initPos u.id = s.initPos u.id
  same : Same s s2

theorem inits_cons {t : DTrack} {l : List DTrack} (hs : Sep (t :: l)) {c : DTrack → Bytes} {p : DTrack → Nat} {s s1 s2 : DivSt}
    (h1 : Inits [t] c p s s1) (h2 : Inits l c p s1 s2) : Inits (t :: l) c p s s2 := by
  have hs := List.pairwise_cons.1 hs
  refine ⟨?_, ?_, h1.same.trans h2.same⟩
  · intro u hu
    rcases List.mem_cons.1 hu with rfl | hu
    · obtain ⟨e1, e2⟩ := h2.others u fun v hv => hs.1 v hv
      rw [e1, e2]
      exact h1.mine u (by simp)
    · exact h2.mine u hu
  · intro u hu
    obtain ⟨e1, e2⟩ := h2.others u fun v hv => hu v (List.mem_cons_of_mem _ hv)
    obtain ⟨e3, e4⟩ := h1.others u fun v hv => hu v (by simp only [List.mem_singleton] at hv; rw [hv]; simp)
    exact ⟨e1.trans e3, e2.trans e4⟩

theorem inits_nil (c : DTrack → Bytes) (p : DTrack → Nat) (s : DivSt) : Inits [] c p s s :=
  ⟨by simp, fun _ _ => ⟨rfl, rfl⟩, Same.refl s⟩

/-- a seek and a write -/
theorem inits_seekWrite (t : DTrack) (o : Nat) (b : Bytes) (s : DivSt) :
    Inits [t] (fun _ => writeAt (s.inits t.kind) o b) (fun _ => o + b.length) s (initWrite t b (initSeek t o s)) := by
  refine ⟨?_, ?_, ⟨rfl, rfl, rfl, rfl, rfl, rfl⟩⟩
  · intro u hu
    simp only [List.mem_singleton] at hu
    subst hu
    simp [initWrite, initSeek, upd]
  · intro u hu
    have := hu t (by simp)
    simp [initWrite, initSeek, upd, this.1, this.2]

theorem inits_write (t : DTrack) (b : Bytes) (s : DivSt) :
    Inits [t] (fun _ => writeAt (s.inits t.kind) (s.initPos t.id) b) (fun _ => s.initPos t.id + b.length) s (initWrite t b s) := by
  refine ⟨?_, ?_, ⟨rfl, rfl, rfl, rfl, rfl, rfl⟩⟩
  · intro u hu
    simp only [List.mem_singleton] at hu
    subst hu
    simp [initWrite, upd]
  · intro u hu
    have := hu t (by simp)
    simp [initWrite, upd, this.1, this.2]

theorem Inits.congr {l : List DTrack} {c c' : DTrack → Bytes} {p p' : DTrack → Nat} {s s2 : DivSt} (h : Inits l c p s s2)
    (hc : ∀ t ∈ l, c t = c' t ∧ p t = p' t) : Inits l c' p' s s2 :=
  ⟨fun t ht => by rw [← (hc t ht).1, ← (hc t ht).2]; exact h.mine t ht, h.others, h.same⟩

/-- the contents of the other tracks in a list -/
theorem Inits.rest {t : DTrack} {l : List DTrack} (hs : Sep (t :: l)) {c : DTrack → Bytes} {p : DTrack → Nat} {s s1 : DivSt} (h : Inits [t] c p s s1)
    {u : DTrack} (hu : u ∈ l) : s1.inits u.kind = s.inits u.kind ∧ s1.initPos u.id = s.initPos u.id := by
  have hs := (List.pairwise_cons.1 hs).1 u hu
  exact h.others u fun v hv => by
    simp only [List.mem_singleton] at hv
    rw [hv]
    exact ⟨fun e => hs.1 e.symm, fun e => hs.2 e.symm⟩

/-! ## The parts of the handler -/

/-- the row that is made for a track -/
def startRow (bi : BoxInfo) (s : DivSt) (t : DTrack) : Row :=
  ⟨t, (s.inits t.kind).length, { boxInfoWritten bi (s.inits t.kind).length with size := (boxInfoBytes bi).length }⟩

theorem startHeaders_eq (bi : BoxInfo) : ∀ (l : List DTrack) (s : DivSt), Sep l →
    (startHeaders bi l s).1 = l.map (startRow bi s) ∧
    Inits l (fun t => s.inits t.kind ++ boxInfoBytes bi) (fun t => (s.inits t.kind).length + (boxInfoBytes bi).length) s (startHeaders bi l s).2
  | [], s, _ => ⟨rfl, inits_nil _ _ s⟩
  | t :: l, s, hs => by
    have h1 := inits_seekWrite t (s.inits t.kind).length (boxInfoBytes bi) s
    obtain ⟨e2, h2⟩ := startHeaders_eq bi l (initWrite t (boxInfoBytes bi) (initSeek t (s.inits t.kind).length s)) (List.pairwise_cons.1 hs).2
    refine ⟨?_, inits_cons hs (h1.congr ?_) (h2.congr ?_)⟩
    · simp only [startHeaders, List.map_cons]
      rw [e2]
      congr 1
      refine List.map_congr_left fun u hu => ?_
      unfold startRow
      rw [(h1.rest hs hu).1]
    · intro u hu
      simp only [List.mem_singleton] at hu
      subst hu
      exact ⟨writeAt_end _ _, rfl⟩
    · intro u hu
      rw [(h1.rest hs hu).1]
      exact ⟨rfl, rfl⟩

/-- all payloads written -/
def writeAll (b : Bytes) (l : List Row) (s : DivSt) : DivSt := l.foldl (fun s r => initWrite r.track b s) s

theorem writeAll_eq (b : Bytes) : ∀ (l : List Row) (s : DivSt), Sep (l.map Row.track) →
    Inits (l.map Row.track) (fun t => writeAt (s.inits t.kind) (s.initPos t.id) b) (fun t => s.initPos t.id + b.length) s (writeAll b l s)
  | [], s, _ => inits_nil _ _ s
  | r :: l, s, hs => by
    have hs : Sep (r.track :: l.map Row.track) := hs
    have h1 := inits_write r.track b s
    have h2 := writeAll_eq b l (initWrite r.track b s) (List.pairwise_cons.1 hs).2
    refine inits_cons hs (h1.congr ?_) (h2.congr ?_)
    · intro u hu
      simp only [List.mem_singleton] at hu
      subst hu
      exact ⟨rfl, rfl⟩
    · intro u hu
      obtain ⟨e1, e2⟩ := h1.rest hs hu
      rw [e1, e2]
      exact ⟨rfl, rfl⟩

/-- the headers written again, for rows that are given by their tracks -/
theorem finishHeaders_eq (f : DTrack → Nat × BoxInfo) : ∀ (l : List DTrack) (s : DivSt), Sep l →
    (finishHeaders (l.map fun t => ⟨t, (f t).1, (f t).2⟩) s).1 = l.map (fun t => (t.id, (boxInfoWritten (f t).2 (f t).1).size)) ∧
    Inits l (fun t => writeAt (s.inits t.kind) (f t).1 (boxInfoBytes (f t).2)) (fun t => (f t).1 + (boxInfoBytes (f t).2).length) s
      (finishHeaders (l.map fun t => ⟨t, (f t).1, (f t).2⟩) s).2
  | [], s, _ => ⟨rfl, inits_nil _ _ s⟩
  | t :: l, s, hs => by
    have h1 := inits_seekWrite t (f t).1 (boxInfoBytes (f t).2) s
    obtain ⟨e2, h2⟩ := finishHeaders_eq f l (initWrite t (boxInfoBytes (f t).2) (initSeek t (f t).1 s)) (List.pairwise_cons.1 hs).2
    refine ⟨?_, inits_cons hs (h1.congr ?_) (h2.congr ?_)⟩
    · simp only [finishHeaders, List.map_cons]
      rw [e2]
    · intro u hu
      simp only [List.mem_singleton] at hu
      subst hu
      exact ⟨rfl, rfl⟩
    · intro u hu
      rw [(h1.rest hs hu).1]
      exact ⟨rfl, rfl⟩

/-! ## Runs that succeed -/

section
variable {path : List BoxType} {bi : BoxInfo} {children : Nat → Unit → TM DivSt (Option Sizes) (List (Option Sizes))}

/-- the contents of a box -/
def bodyOf (d : Bytes) (bi : BoxInfo) : Bytes := (d.drop (bi.offset + bi.headerSize)).take (bi.size - bi.headerSize)

/-- sizes as they should be -/
def Fair (bi : BoxInfo) : Prop := bi.headerSize ≤ bi.size ∧ bi.size < 2 ^ 63

theorem sub64_fair (hf : Fair bi) : sub64 bi.size bi.headerSize = bi.size - bi.headerSize := by
  obtain ⟨h1, h2⟩ := hf
  unfold sub64
  simp only [U64]
  omega

theorem readData_inv (hd : d.length ≤ maxAlloc) (hb : HeaderAt d bi) (hf : Fair bi) {k : Except Err Nat → Bytes → VProg} {co : Nat}
    {st st2 : TSt DivSt (Option Sizes)} {v : Option Sizes}
    (hk : ∀ e b (st : TSt DivSt (Option Sizes)), (runProg BoxMap.std d path bi children (k (.error e) b) co st).1 ≠ .ok v)
    (hr : runProg BoxMap.std d path bi children (.readData ⟨none, 0⟩ k) co st = (.ok v, st2)) :
    (bodyOf d bi).length = bi.size - bi.headerSize ∧ ∃ p, runProg BoxMap.std d path bi children (k (.ok (bi.size - bi.headerSize)) (bodyOf d bi)) co ⟨p, st.user, st.log⟩ = (.ok v, st2) := by
  have hs := seekToPayload_ok hd hb.inside (pos := st.pos)
  rw [runProg] at hr
  obtain ⟨⟨r, b⟩, s1, h1, h2⟩ := bind_ok_inv hr
  rw [liftP_run] at h1
  unfold readDataP at h1
  rw [hs] at h1
  simp only [sub64_fair hf] at h1
  cases hc : copyNP d (bi.size - bi.headerSize) (bi.offset + bi.headerSize) with
  | mk o p' =>
    rw [hc] at h1
    cases o with
    | ok x =>
      cases h1
      have hx : b = bodyOf d bi ∧ (bodyOf d bi).length = bi.size - bi.headerSize := by
        unfold copyNP at hc
        unfold bodyOf
        split at hc
        · next h =>
          have : bi.size - bi.headerSize = 0 := by have := hf.2; omega
          cases hc
          simp [this]
        · simp only at hc
          split at hc
          · cases hc
          · next h =>
            cases hc
            refine ⟨rfl, ?_⟩
            simp only [List.length_take, List.length_drop] at h ⊢
            omega
      rw [hx.1] at h2
      exact ⟨hx.2, p', h2⟩
    | err e =>
      cases h1
      exact absurd (congrArg Prod.fst h2) (hk _ _ _)
    | panic => cases h1
    | hang => cases h1

/-- a row to whose box the payload has been added -/
def Row.grow (n : Nat) (r : Row) : Row := { r with info := { r.info with size := add64 r.info.size n } }

theorem copyPayload_inv (hd : d.length ≤ maxAlloc) (hb : HeaderAt d bi) (hf : Fair bi) {k : List Row → VProg} {co : Nat} {st2 : TSt DivSt (Option Sizes)}
    {v : Option Sizes} : ∀ (l rows : List Row) (st : TSt DivSt (Option Sizes)),
    runProg BoxMap.std d path bi children (copyPayload l rows k) co st = (.ok v, st2) →
    (l ≠ [] → (bodyOf d bi).length = bi.size - bi.headerSize) ∧
    ∃ p, runProg BoxMap.std d path bi children (k (rows ++ l.map (Row.grow (bi.size - bi.headerSize)))) co ⟨p, writeAll (bodyOf d bi) l st.user, st.log⟩ = (.ok v, st2)
  | [], rows, st, h => by
    refine ⟨by simp, st.pos, ?_⟩
    simp only [copyPayload] at h
    simp only [List.map_nil, List.append_nil, writeAll, List.foldl_nil]
    exact h
  | r :: l, rows, st, h => by
    rw [copyPayload] at h
    obtain ⟨hl, p, h⟩ := readData_inv hd hb hf (fun e b st => by
      rw [runProg, M.bind_ok (M.get_run _), runProg, M.bind_ok (M.modify_run _ _)]
      simp only
      rw [runProg]
      simp [M.fail]) h
    rw [runProg, M.bind_ok (M.get_run _), runProg, M.bind_ok (M.modify_run _ _)] at h
    simp only at h
    obtain ⟨-, p2, h⟩ := copyPayload_inv hd hb hf l _ _ h
    refine ⟨fun _ => hl, p2, ?_⟩
    rw [List.append_assoc] at h
    exact h

/-- the header in the file -/
theorem header_bytes (hb : HeaderAt d bi) : (d.drop bi.offset).take bi.headerSize = boxInfoBytes bi ∧ (boxInfoBytes bi).length = bi.headerSize ∧
    (Form.of bi).len = bi.headerSize := by
  obtain ⟨h1, h2⟩ := header_written hb.iso
  rw [boxInfoBytes_form, h2, Form.header_length]
  exact ⟨rfl, h1, h1⟩

/-- the bytes of a box in the file -/
def boxBytes (d : Bytes) (bi : BoxInfo) : Bytes := (d.drop bi.offset).take bi.size

theorem boxBytes_eq (hb : HeaderAt d bi) (hf : Fair bi) : boxBytes d bi = boxInfoBytes bi ++ bodyOf d bi := by
  rw [← (header_bytes hb).1]
  unfold boxBytes bodyOf
  conv => lhs; rw [show bi.size = bi.headerSize + (bi.size - bi.headerSize) by have := hf.1; omega]
  rw [List.take_add, List.drop_drop]

/-- Something has been added to the initialization segments of these tracks. -/
structure Grew (l : List DTrack) (c : DTrack → Bytes) (s s2 : DivSt) : Prop where
  mine : ∀ t ∈ l, s2.inits t.kind = s.inits t.kind ++ c t
  others : ∀ u : DTrack, (∀ t ∈ l, u.id ≠ t.id ∧ u.kind ≠ t.kind) → s2.inits u.kind = s.inits u.kind
  same : Same s s2

/-- the rows when the headers are rewritten -/
def lastRow (bi : BoxInfo) (s : DivSt) (z : DTrack → Nat) (t : DTrack) : Nat × BoxInfo :=
  ((s.inits t.kind).length, { boxInfoWritten bi (s.inits t.kind).length with size := z t })

/-- the whole: headers, something that is added, headers again -/
theorem rewritten {l : List DTrack} (hs : Sep l) (hb : HeaderAt d bi) {s s1 : DivSt} {c : DTrack → Bytes} {z : DTrack → Nat}
    (hz : ∀ t ∈ l, bi.headerSize ≤ z t ∧ z t < U64 ∧ (Form.of bi = .small → z t < 2 ^ 32))
    (h1 : Grew l c (startHeaders bi l s).2 s1) :
    (finishHeaders (l.map fun t => ⟨t, (lastRow bi s z t).1, (lastRow bi s z t).2⟩) s1).1 = l.map (fun t => (t.id, z t)) ∧
    Grew l (fun t => (Form.of bi).header bi.type (z t) ++ c t) s
      (finishHeaders (l.map fun t => ⟨t, (lastRow bi s z t).1, (lastRow bi s z t).2⟩) s1).2 := by
  obtain ⟨-, h0⟩ := startHeaders_eq bi l s hs
  obtain ⟨e2, h2⟩ := finishHeaders_eq (lastRow bi s z) l s1 hs
  obtain ⟨-, hlen, hform⟩ := header_bytes hb
  have hbytes : ∀ t ∈ l, boxInfoBytes (lastRow bi s z t).2 = (Form.of bi).header bi.type (z t) := by
    intro t ht
    rw [boxInfoBytes_form]
    unfold lastRow
    rw [form_of_written (hz t ht).2.2]
    rfl
  refine ⟨?_, ?_, ?_, ?_⟩
  · rw [e2]
    refine List.map_congr_left fun t ht => ?_
    have e : (boxInfoWritten (lastRow bi s z t).2 (lastRow bi s z t).1).size = z t := by
      show add64 (sub64 (z t) (boxInfoBytes bi).length) (boxInfoBytes (lastRow bi s z t).2).length = z t
      rw [hbytes t ht, Form.header_length, hform, hlen]
      obtain ⟨q1, q2, -⟩ := hz t ht
      have h16 := hb.hdr
      unfold add64 sub64
      simp only [U64] at *
      omega
    rw [e]
  · intro t ht
    have e3 : s1.inits t.kind = writeAt (s.inits t.kind) (s.inits t.kind).length (boxInfoBytes bi ++ c t) := by
      rw [h1.mine t ht, (h0.mine t ht).1, writeAt_end, List.append_assoc]
    have hl : (boxInfoBytes (lastRow bi s z t).2).length = (boxInfoBytes bi).length := by
      rw [hbytes t ht, Form.header_length, hform, hlen]
    rw [(h2.mine t ht).1]
    show writeAt (s1.inits t.kind) (s.inits t.kind).length (boxInfoBytes (lastRow bi s z t).2) = _
    rw [e3, writeAt_patch _ _ _ _ _ hl, writeAt_end, hbytes t ht]
  · intro u hu
    rw [(h2.others u hu).1, h1.others u hu, (h0.others u hu).1]
  · exact h0.same.trans (h1.same.trans h2.same)

/-- a box, other than `moov`, that goes into initialization segments -/
theorem initBox_leaf (hd : d.length ≤ maxAlloc) (hb : HeaderAt d bi) (hf : Fair bi) (ht : bi.type ≠ tMoov) {l : List DTrack} (hs : Sep l) {co : Nat}
    {st st2 : TSt DivSt (Option Sizes)} {v : Option Sizes} (hr : runProg BoxMap.std d path bi children (initBox bi l) co st = (.ok v, st2)) :
    (l ≠ [] → (boxBytes d bi).length = bi.size) ∧ v = some (l.map fun t => (t.id, bi.size)) ∧ Grew l (fun _ => boxBytes d bi) st.user st2.user := by
  obtain ⟨hh1, hlen, hform⟩ := header_bytes hb
  obtain ⟨e0, h0⟩ := startHeaders_eq bi l st.user hs
  unfold initBox at hr
  rw [runProg, M.bind_ok (M.get_run _), runProg, M.bind_ok (M.modify_run _ _), if_neg ht] at hr
  obtain ⟨hl, p, hr⟩ := copyPayload_inv hd hb hf _ _ _ hr
  simp only [List.nil_append] at hr
  rw [e0] at hr hl
  have htr : (l.map (startRow bi st.user)).map Row.track = l := by
    rw [List.map_map]
    exact List.map_id'' (fun _ => rfl) _
  have h1 := writeAll_eq (bodyOf d bi) (l.map (startRow bi st.user)) (startHeaders bi l st.user).2 (by rw [htr]; exact hs)
  rw [htr] at h1
  have hg : Grew l (fun _ => bodyOf d bi) (startHeaders bi l st.user).2 (writeAll (bodyOf d bi) (l.map (startRow bi st.user)) (startHeaders bi l st.user).2) := by
    refine ⟨fun t ht => ?_, fun u hu => (h1.others u hu).1, h1.same⟩
    rw [(h1.mine t ht).1, (h0.mine t ht).2, (h0.mine t ht).1, ← List.length_append, writeAt_end]
  have hz : ∀ t ∈ l, bi.headerSize ≤ bi.size ∧ bi.size < U64 ∧ (Form.of bi = .small → bi.size < 2 ^ 32) := by
    intro t _
    refine ⟨hf.1, hb.lt, fun h => ?_⟩
    unfold Form.of at h
    split at h
    · cases h
    · split at h
      · cases h
      · omega
  obtain ⟨e3, h3⟩ := rewritten hs hb (z := fun _ => bi.size) hz hg
  have hrows : (l.map (startRow bi st.user)).map (Row.grow (bi.size - bi.headerSize)) =
      l.map fun t => ⟨t, (lastRow bi st.user (fun _ => bi.size) t).1, (lastRow bi st.user (fun _ => bi.size) t).2⟩ := by
    rw [List.map_map]
    refine List.map_congr_left fun t _ => ?_
    have : add64 (boxInfoBytes bi).length (bi.size - bi.headerSize) = bi.size := by
      rw [hlen]
      have := hf.1
      have := hb.lt
      unfold add64
      simp only [U64] at *
      omega
    simp only [Function.comp, Row.grow, startRow, lastRow, this]
  rw [hrows] at hr
  unfold finish at hr
  rw [runProg, M.bind_ok (M.get_run _), runProg, M.bind_ok (M.modify_run _ _)] at hr
  cases hr
  refine ⟨fun hne => ?_, by rw [e3], ?_⟩
  · have := hl (by simpa using hne)
    rw [boxBytes_eq hb hf, List.length_append, hlen, this]
    have := hf.1
    omega
  · refine ⟨fun t ht => ?_, h3.others, h3.same⟩
    rw [h3.mine t ht, boxBytes_eq hb hf, boxInfoBytes_form]

/-- what the children report for a track -/
def reported (vs : List (Option Sizes)) (id : Nat) : Nat := (vs.map fun v => (v.getD []).of id).sum

theorem addSizes_inv : ∀ (vs : List (Option Sizes)) (rows rows' : List Row), (∀ r ∈ rows, r.info.size < U64) → addSizes vs rows = some rows' →
    (∀ v ∈ vs, v ≠ none) ∧ rows' = rows.map fun r => { r with info := { r.info with size := (r.info.size + reported vs r.track.id) % U64 } }
  | [], rows, rows', hr, h => by
    cases h
    refine ⟨by simp, ?_⟩
    conv => lhs; rw [← List.map_id rows]
    refine List.map_congr_left fun r h => ?_
    have : (r.info.size + reported [] r.track.id) % U64 = r.info.size := by
      rw [show reported [] r.track.id = 0 from rfl, Nat.add_zero]
      exact Nat.mod_eq_of_lt (hr r h)
    rw [this]
    rfl
  | none :: l, rows, rows', hr, h => by cases h
  | some ci :: l, rows, rows', hr, h => by
    rw [addSizes] at h
    obtain ⟨h1, h2⟩ := addSizes_inv l _ rows' (by
      intro r hr'
      obtain ⟨q, -, rfl⟩ := List.mem_map.1 hr'
      exact Nat.mod_lt _ (by decide)) h
    refine ⟨by simpa using h1, ?_⟩
    rw [h2, List.map_map]
    refine List.map_congr_left fun r _ => ?_
    have : (add64 r.info.size (ci.of r.track.id) + reported l r.track.id) % U64 = (r.info.size + reported (some ci :: l) r.track.id) % U64 := by
      unfold add64 reported
      simp only [List.map_cons, List.sum_cons, Option.getD_some, Nat.mod_add_mod]
      rw [Nat.add_assoc]
    simp only [Function.comp, this]

/-- `moov` -/
theorem initBox_moov (hd : d.length ≤ maxAlloc) (hb : HeaderAt d bi) (ht : bi.type = tMoov) {l : List DTrack} (hs : Sep l)
    {st st2 : TSt DivSt (Option Sizes)} {v : Option Sizes} (hr : runProg BoxMap.std d path bi children (initBox bi l) 0 st = (.ok v, st2)) :
    ∃ n vs st1, PayloadN d bi n ∧ children (bi.offset + bi.headerSize + n) () (opened ⟨st.pos, (startHeaders bi l st.user).2, st.log⟩ path bi (bi.offset + bi.headerSize + n)) = (.ok vs, st1) ∧
      (∀ v ∈ vs, v ≠ none) ∧
      ∀ (c : DTrack → Bytes) (z : DTrack → Nat), Grew l c (startHeaders bi l st.user).2 st1.user → (∀ t ∈ l, reported vs t.id = z t) →
        (∀ t ∈ l, bi.headerSize + z t < U64 ∧ (Form.of bi = .small → bi.headerSize + z t < 2 ^ 32)) →
        v = some (l.map fun t => (t.id, bi.headerSize + z t)) ∧
        Grew l (fun t => (Form.of bi).header bi.type (bi.headerSize + z t) ++ c t) st.user st2.user := by
  obtain ⟨hh1, hlen, hform⟩ := header_bytes hb
  obtain ⟨e0, h0⟩ := startHeaders_eq bi l st.user hs
  unfold initBox at hr
  rw [runProg, M.bind_ok (M.get_run _), runProg, M.bind_ok (M.modify_run _ _), if_pos ht] at hr
  obtain ⟨n, vs, st1, hn, hc, hr⟩ := expand_ok_inv hd hb.inside (fun e => ⟨e, rfl⟩) hr
  refine ⟨n, vs, st1, hn, hc, ?_⟩
  rw [e0] at hr
  simp only [moovDone] at hr
  cases ha : addSizes vs (l.map (startRow bi st.user)) with
  | none =>
    rw [ha] at hr
    cases hr
  | some rows =>
    rw [ha] at hr
    obtain ⟨h1, h2⟩ := addSizes_inv vs _ _ (by
      intro r hr'
      obtain ⟨q, -, rfl⟩ := List.mem_map.1 hr'
      show (boxInfoBytes bi).length < U64
      rw [hlen]
      have := hb.hdr
      simp only [U64]
      omega) ha
    refine ⟨h1, ?_⟩
    intro c z hg hrep hz
    simp only at hr
    unfold finish at hr
    rw [runProg, M.bind_ok (M.get_run _), runProg, M.bind_ok (M.modify_run _ _)] at hr
    have hrows : rows = l.map fun t => ⟨t, (lastRow bi st.user (fun t => bi.headerSize + z t) t).1, (lastRow bi st.user (fun t => bi.headerSize + z t) t).2⟩ := by
      rw [h2, List.map_map]
      refine List.map_congr_left fun t ht => ?_
      have : ((boxInfoBytes bi).length + reported vs t.id) % U64 = bi.headerSize + z t := by
        rw [hlen, hrep t ht]
        exact Nat.mod_eq_of_lt (hz t ht).1
      simp only [Function.comp, startRow, lastRow, this]
    obtain ⟨e3, h3⟩ := rewritten hs hb (z := fun t => bi.headerSize + z t) (fun t ht => ⟨Nat.le_add_right _ _, hz t ht⟩) hg
    rw [hrows] at hr
    cases hr
    exact ⟨by rw [e3], h3⟩

/-! ## Media segments -/

theorem copyMedia_inv (hd : d.length ≤ maxAlloc) (hb : HeaderAt d bi) (hf : Fair bi) {t : DTrack} {co : Nat} {st st2 : TSt DivSt (Option Sizes)}
    {v : Option Sizes} (hr : runProg BoxMap.std d path bi children (copyMedia t bi) co st = (.ok v, st2)) :
    (boxBytes d bi).length = bi.size ∧ v = none ∧ st2.user = segWrite t (bodyOf d bi) (segWrite t (boxInfoBytes bi) st.user) := by
  unfold copyMedia at hr
  rw [runProg, M.bind_ok (M.get_run _), runProg, M.bind_ok (M.modify_run _ _)] at hr
  obtain ⟨hl, p, hr⟩ := readData_inv hd hb hf (fun e b st => by
    rw [runProg, M.bind_ok (M.get_run _), runProg, M.bind_ok (M.modify_run _ _)]
    simp only
    rw [runProg]
    simp [M.fail]) hr
  rw [runProg, M.bind_ok (M.get_run _), runProg, M.bind_ok (M.modify_run _ _)] at hr
  cases hr
  refine ⟨?_, rfl, rfl⟩
  rw [boxBytes_eq hb hf, List.length_append, hl, (header_bytes hb).2.1]
  have := hf.1
  omega

theorem copyMedia_none {t : DTrack} {b : BoxInfo} {co : Nat} {st st2 : TSt DivSt (Option Sizes)} {v : Option Sizes}
    (hr : runProg BoxMap.std d path bi children (copyMedia t b) co st = (.ok v, st2)) : v = none := by
  unfold copyMedia at hr
  rw [runProg, M.bind_ok (M.get_run _), runProg, M.bind_ok (M.modify_run _ _), runProg] at hr
  obtain ⟨⟨r, x⟩, s1, -, h2⟩ := bind_ok_inv hr
  simp only at h2
  rw [runProg, M.bind_ok (M.get_run _), runProg, M.bind_ok (M.modify_run _ _)] at h2
  cases r with
  | error e => cases h2
  | ok n => cases h2; rfl

/-- What has been written for a track: the initialization segment, and the durations and contents of the segments; and what
has been noted about its `mdat` boxes. -/
structure TrackOut where
  init : Bytes
  segs : List (Nat × Bytes)
  rates : List (Nat × Nat)

/-- This is what is in the files. -/
structure Holds (t : DTrack) (s : DivSt) (a : TrackOut) : Prop where
  init : s.inits t.kind = a.init
  durs : s.durs t.id = a.segs.map (·.1)
  segs : ∀ k, s.segs t.kind k = ((a.segs[k]?).map (·.2)).getD []
  last : ∀ l x, a.segs = l ++ [x] → s.segAt t.id = (l.length, x.2.length)
  rates : s.rates t.id = a.rates

/-- Another track writes. -/
theorem Holds.other {t u : DTrack} {s : DivSt} {a : TrackOut} (h : Holds u s a) (hu : u.id ≠ t.id ∧ u.kind ≠ t.kind) (b : Bytes) : Holds u (segWrite t b s) a := by
  refine ⟨h.init, h.durs, fun k => ?_, fun l x e => ?_, h.rates⟩
  · show upd s.segs t.kind _ u.kind k = _
    rw [upd_other _ _ hu.2]
    exact h.segs k
  · show upd s.segAt t.id _ u.id = _
    rw [upd_other _ _ hu.1]
    exact h.last l x e

theorem Holds.otherNext {t u : DTrack} {s : DivSt} {a : TrackOut} (h : Holds u s a) (hu : u.id ≠ t.id ∧ u.kind ≠ t.kind) (n : Nat) : Holds u (nextSegment t n s) a := by
  refine ⟨h.init, ?_, fun k => ?_, fun l x e => ?_, h.rates⟩
  · show upd s.durs t.id _ u.id = _
    rw [upd_other _ _ hu.1]
    exact h.durs
  · show upd s.segs t.kind _ u.kind k = _
    rw [upd_other _ _ hu.2]
    exact h.segs k
  · show upd s.segAt t.id _ u.id = _
    rw [upd_other _ _ hu.1]
    exact h.last l x e

theorem Holds.next {t : DTrack} {s : DivSt} {a : TrackOut} (h : Holds t s a) (n : Nat) : Holds t (nextSegment t n s) ⟨a.init, a.segs ++ [(n, [])], a.rates⟩ := by
  have hl : (s.durs t.id).length = a.segs.length := by rw [h.durs, List.length_map]
  refine ⟨h.init, ?_, fun k => ?_, fun l x e => ?_, h.rates⟩
  · show upd s.durs t.id _ t.id = _
    rw [upd_same, h.durs]
    simp
  · show upd s.segs t.kind _ t.kind k = _
    rw [upd_same, hl]
    by_cases hk : k = a.segs.length
    · subst hk
      rw [upd_same]
      simp
    · rw [upd_other _ _ hk, h.segs k]
      simp only
      congr 2
      by_cases hk2 : k < a.segs.length
      · rw [List.getElem?_append_left hk2]
      · rw [List.getElem?_eq_none (by omega), List.getElem?_eq_none (by simp; omega)]
  · show upd s.segAt t.id _ t.id = _
    rw [upd_same, hl]
    obtain ⟨e1, e2⟩ := List.append_inj' e rfl
    cases e2
    rw [e1]
    rfl

theorem Holds.write {t : DTrack} {s : DivSt} {I : Bytes} {l : List (Nat × Bytes)} {x : Nat × Bytes} {R : List (Nat × Nat)} (h : Holds t s ⟨I, l ++ [x], R⟩) (b : Bytes) :
    Holds t (segWrite t b s) ⟨I, l ++ [(x.1, x.2 ++ b)], R⟩ := by
  have hat := h.last l x rfl
  have hseg : s.segs t.kind l.length = x.2 := by
    rw [h.segs]
    simp
  refine ⟨h.init, ?_, fun k => ?_, fun l' x' e => ?_, h.rates⟩
  · show s.durs t.id = _
    rw [h.durs]
    simp
  · show upd s.segs t.kind _ t.kind k = _
    rw [upd_same, hat]
    by_cases hk : k = l.length
    · subst hk
      rw [upd_same, hseg, writeAt_end]
      simp
    · rw [upd_other _ _ hk, h.segs k]
      congr 2
      by_cases hk2 : k < l.length
      · rw [List.getElem?_append_left hk2, List.getElem?_append_left hk2]
      · rw [List.getElem?_eq_none (by simp; omega), List.getElem?_eq_none (by simp; omega)]
  · show upd s.segAt t.id _ t.id = _
    rw [upd_same, hat]
    obtain ⟨e1, e2⟩ := List.append_inj' e rfl
    cases e2
    rw [← e1]
    simp

/-- changes of the initialization segments only -/
theorem Holds.grew {t : DTrack} {s s2 : DivSt} {a : TrackOut} (h : Holds t s a) {l : List DTrack} {c : DTrack → Bytes} (hg : Grew l c s s2) {b : Bytes}
    (hi : s2.inits t.kind = s.inits t.kind ++ b) : Holds t s2 ⟨a.init ++ b, a.segs, a.rates⟩ := by
  refine ⟨by rw [hi, h.init], ?_, ?_, ?_, hg.same.rates ▸ h.rates⟩
  · rw [hg.same.durs]; exact h.durs
  · rw [hg.same.segs]; exact h.segs
  · rw [hg.same.segAt]; exact h.last

/-- a `mdat` of another track -/
theorem Holds.otherRate {t u : DTrack} {s : DivSt} {a : TrackOut} (h : Holds u s a) (hu : u.id ≠ t.id ∧ u.kind ≠ t.kind) (b : BoxInfo) : Holds u (noteRate t b s) a := by
  refine ⟨h.init, h.durs, h.segs, h.last, ?_⟩
  show upd s.rates t.id _ u.id = _
  rw [upd_other _ _ hu.1]
  exact h.rates

/-- the duration of the last segment -/
def lastTicks (l : List (Nat × Bytes)) : Nat := (l.map (·.1)).getLastD 0

theorem Holds.rate {t : DTrack} {s : DivSt} {a : TrackOut} (h : Holds t s a) (b : BoxInfo) :
    Holds t (noteRate t b s) ⟨a.init, a.segs, a.rates ++ [(b.size, lastTicks a.segs)]⟩ := by
  refine ⟨h.init, h.durs, h.segs, h.last, ?_⟩
  show upd s.rates t.id _ t.id = _
  rw [upd_same, h.rates, h.durs]
  rfl

/-! ## Extraction in the handler -/

theorem extractBoxes_anywhere (d : Bytes) (fuel : Nat) (bi : BoxInfo) (paths : List (List BoxType)) (pos : Nat) :
    (extractBoxes BoxMap.std d fuel (some bi) paths pos).1 = (extractBoxes BoxMap.std d fuel (some bi) paths 0).1 ∧
      (∀ a, (extractBoxes BoxMap.std d fuel (some bi) paths pos).1 = .ok a → a.1 = [] ∨
        extractBoxes BoxMap.std d fuel (some bi) paths pos = extractBoxes BoxMap.std d fuel (some bi) paths 0) := by
  unfold extractBoxes
  split
  · exact ⟨rfl, fun a h => by cases h; exact .inl rfl⟩
  split
  · exact ⟨rfl, fun a h => by cases h⟩
  have e : ∀ (h : Handler (List BoxInfo) Unit Unit), (readBoxStructureFrom BoxMap.std d h fuel bi () ⟨pos, [], []⟩ = readBoxStructureFrom BoxMap.std d h fuel bi () ⟨0, [], []⟩) ∨
      ∃ e, readBoxStructureFrom BoxMap.std d h fuel bi () ⟨pos, [], []⟩ = (.err e, ⟨pos, [], []⟩) ∧ readBoxStructureFrom BoxMap.std d h fuel bi () ⟨0, [], []⟩ = (.err e, ⟨0, [], []⟩) := by
    intro h
    unfold readBoxStructureFrom fromInternal
    by_cases h63 : 2 ^ 63 ≤ add64 bi.offset bi.headerSize % U64
    · right
      have e0 : ∀ q, (liftP bi.seekToPayload : TM (List BoxInfo) Unit Nat) ⟨q, [], []⟩ = (.err .negativeSeek, ⟨q, [], []⟩) := fun q => by
        rw [liftP_run]
        unfold BoxInfo.seekToPayload seekStartP
        rw [if_pos h63]
      exact ⟨.negativeSeek, by rw [M.bind_err (e0 pos)], by rw [M.bind_err (e0 0)]⟩
    · left
      have e0 : ∀ q, (liftP bi.seekToPayload : TM (List BoxInfo) Unit Nat) ⟨q, [], []⟩ =
          (.ok (add64 bi.offset bi.headerSize % U64), ⟨add64 bi.offset bi.headerSize % U64, [], []⟩) := fun q => by
        rw [liftP_run]
        unfold BoxInfo.seekToPayload seekStartP
        rw [if_neg h63]
      rw [M.bind_ok (e0 pos), M.bind_ok (e0 0)]
  rcases e (extractHandler true paths) with e | ⟨err, e1, e2⟩
  · simp only
    rw [e]
    exact ⟨rfl, fun a _ => .inr rfl⟩
  · simp only
    rw [e1, e2]
    exact ⟨rfl, fun a h => by cases h⟩

/-- what is extracted below a box does not depend on the position of the stream -/
theorem extract_anywhere (d : Bytes) (fuel : Nat) (bi : BoxInfo) (q : List BoxType) (pos : Nat) :
    (extractBoxWithPayload BoxMap.std d fuel (some bi) q pos).1 = (extractBoxWithPayload BoxMap.std d fuel (some bi) q 0).1 := by
  obtain ⟨k1, k2⟩ := extractBoxes_anywhere d fuel bi [q] pos
  unfold extractBoxWithPayload extractBoxesWithPayload
  cases h1 : extractBoxes BoxMap.std d fuel (some bi) [q] pos with
  | mk o p =>
    cases h2 : extractBoxes BoxMap.std d fuel (some bi) [q] 0 with
    | mk o' p' =>
      rw [h1, h2] at k1 k2
      simp only at k1
      subst k1
      cases o with
      | err e => rw [M.bind_err h1, M.bind_err h2]
      | panic => rw [M.bind_panic h1, M.bind_panic h2]
      | hang => rw [M.bind_hang h1, M.bind_hang h2]
      | ok a =>
        rw [M.bind_ok h1, M.bind_ok h2]
        rcases k2 a rfl with h | h
        · obtain ⟨l, par⟩ := a
          simp only at h
          subst h
          rfl
        · cases h
          rfl

theorem extracting_inv {fuel : Nat} {q : List BoxType} {k : List (BoxInfo × BoxVal) → VProg} {b : BoxInfo} {co : Nat} {st st2 : TSt DivSt (Option Sizes)}
    {v : Option Sizes} (hr : runProg BoxMap.std d path bi children (extracting d fuel b q k) co st = (.ok v, st2)) :
    ∃ l p, (extractBoxWithPayload BoxMap.std d fuel (some b) q 0).1 = .ok l ∧
      runProg BoxMap.std d path bi children (k l) co ⟨p, st.user, st.log⟩ = (.ok v, st2) := by
  unfold extracting at hr
  rw [runProg, M.bind_ok (M.get_run _), M.bind_ok (M.modify_run _ _), extract_anywhere] at hr
  cases he : (extractBoxWithPayload BoxMap.std d fuel (some b) q 0).1 with
  | ok l =>
    rw [he] at hr
    exact ⟨l, _, rfl, hr⟩
  | err e => rw [he] at hr; cases hr
  | panic => rw [he] at hr; cases hr
  | hang => rw [he] at hr; cases hr

end

end Mp4.Tool
