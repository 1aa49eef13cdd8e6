import Verif.Lemmas.EditTree
import Verif.Props.Emsg
import Verif.Model.Rewrite

/-!
# C72: the program of the README that rewrites a file
-/

namespace Mp4.Props

open Mp4 Mp4.Edit Mp4.Rewrite Mp4.Spec

/-! ## Specification -/

/-- The file consists of these boxes, one after the other, from `pos` on.  Nothing is said of what is in them (but for the context: an `ftyp` box
can be decoded). -/
def RootRow (d : Bytes) : List BoxInfo → Ctx → Nat → Prop
  | [], _, pos => pos = d.length
  | bi :: l, ctx, pos => Forest.Placed d true [] ctx pos 0 bi ∧ RootRow d l (nextCtx ctx bi) (pos + bi.size)

/-- The box of type `t`: its payload has been decoded (as the Go type `go`), and `new` is what `Marshal` makes of the changed value; the new size fits the form of
the header. -/
structure Rewritable (d : Bytes) (go : String) (f : SV → SV) (bi : BoxInfo) (new : Bytes) : Prop where
  decoded : ∃ box n p, BoxMap.std.unmarshalAny d bi.type (bi.size - bi.headerSize) bi.ctx (bi.offset + bi.headerSize) = (.ok (box, n), p) ∧
    box.bd.goName = go ∧ ∃ k, marshalBox box.bd memSink bi.ctx (f box.sv) [] = (.ok k, new)
  fits : Form.of bi = .small → 8 + new.length < 2 ^ 32

/-- What the program should write: boxes of the type `t` with a header of the form that they had, the new size and the new payload; the bytes of all others. -/
def rewritten (d : Bytes) (t : BoxType) (new : BoxInfo → Bytes) (l : List BoxInfo) : Bytes :=
  l.flatMap fun bi => if bi.type = t then (Form.of bi).header t ((Form.of bi).len + (new bi).length) ++ new bi else boxBytes d bi

/-! ## The run -/

variable {d : Bytes}

/-- what is decoded -/
def decodedBox (d : Bytes) (bi : BoxInfo) : BoxDef × SV :=
  match BoxMap.std.unmarshalAny d bi.type (bi.size - bi.headerSize) bi.ctx (bi.offset + bi.headerSize) with
  | (.ok (box, _), _) => (box.bd, box.sv)
  | _ => (Cat.bdFree, [])

/-- the calls -/
def rewriteTree (d : Bytes) (t : BoxType) (f : SV → SV) : List BoxInfo → WTree
  | [] => .nil
  | bi :: l =>
    if bi.type = t then .box bi (.fields (decodedBox d bi).1 bi.ctx (f (decodedBox d bi).2) .nil) (rewriteTree d t f l)
    else .copy d bi (rewriteTree d t f l)

theorem rewrite_run (hd : d.length ≤ maxAlloc) (F : Faults) (t : BoxType) (go : String) (f : SV → SV) (new : BoxInfo → Bytes) :
    ∀ (l : List BoxInfo) (fu : Nat) (total : Nat) (ctx : Ctx) (st : TSt Edit.St Unit) (rs : List (Option BoxInfo)) (w : WrSt),
    RootRow d l ctx st.pos → (∀ bi ∈ l, bi.type = t → Rewritable d go f bi (new bi)) → l.length < fu → total < U64 →
    st.user.stop = none → runOps F (rewriteTree d t f l).ops st.user.w = (.ok rs, w) →
    EditPost w (readStructure BoxMap.std d (Rewrite.handler F d t go f) fu none total true [] ctx () st) := by
  intro l
  induction l with
  | nil =>
    intro fu total ctx st rs w hwf _ hf ht hs hw
    obtain ⟨fu, rfl⟩ : ∃ g, fu = g + 1 := ⟨fu - 1, by simp only [List.length_nil] at hf; omega⟩
    cases hw
    obtain ⟨pos, ⟨w, stop⟩, log⟩ := st
    cases hs
    simp only [RootRow] at hwf
    rw [readStructure]
    have hi := Props.readBoxInfo_iso d pos (by simp only [maxAlloc] at hd; omega)
    rw [hwf, List.drop_length] at hi
    have hi : ∃ q, readBoxInfo d pos = (.err .eof, q) := by rw [hwf]; exact hi
    obtain ⟨q, hi⟩ := hi
    have e1 : (tryM (liftP (readBoxInfo d)) : TM Edit.St Unit _) ⟨pos, ⟨w, none⟩, log⟩ =
        (.ok (.error .eof), ⟨q, ⟨w, none⟩, log⟩) := by
      unfold tryM; rw [liftP_run, hi]
    rw [if_pos (.inl rfl), M.bind_ok e1]
    exact ⟨[], q, log, rfl⟩
  | cons bi l ih =>
    intro fu total ctx st rs w hwf hl hf ht hs hw
    obtain ⟨fu, rfl⟩ : ∃ g, fu = g + 1 := ⟨fu - 1, by simp only [List.length_cons] at hf; omega⟩
    simp only [List.length_cons] at hf
    obtain ⟨hp, hwf⟩ := hwf
    have hlt : sub64 total bi.size < U64 := Nat.mod_lt _ (by decide)
    obtain ⟨pos, ⟨w0, stop⟩, log⟩ := st
    cases hs
    have hp' : Forest.Placed d true [] ctx pos total bi := ⟨hp.offset, hp.header, hp.whole, hp.inFile, .inl rfl, hp.own⟩
    simp only [rewriteTree] at hw
    by_cases hx : bi.type = t
    · rw [if_pos hx] at hw
      obtain ⟨x, s1, r2, h1, h2⟩ := runOps_cons_inv hw
      obtain ⟨r3, s4, r4, h3, h4⟩ := runOps_append_inv h2
      obtain ⟨x2, s2, r5, h5, h6⟩ := runOps_cons_inv h3
      cases h6
      obtain ⟨x3, s5, r6, h7, h8⟩ := runOps_cons_inv h4
      obtain ⟨hh, hb⟩ := placed_header hd hp
      obtain ⟨box, n, p, hu, hgo, -⟩ := (hl bi List.mem_cons_self hx).decoded
      have hdec : decodedBox d bi = (box.bd, box.sv) := by
        unfold decodedBox
        rw [hu]
      rw [hdec] at h5
      rw [← sub64_header hp.whole hb.lt] at hu
      have hr : runProg BoxMap.std d ([] ++ [bi.type]) bi
          (fun co p => readStructure BoxMap.std d (Rewrite.handler F d t go f) fu (some bi) (sub64 (add64 bi.offset bi.size) co) false
            ([] ++ [bi.type]) (childCtx bi) p)
          (Rewrite.handler F d t go f ⟨(), bi, [] ++ [bi.type]⟩) 0
          (entered ⟨pos + bi.headerSize, ⟨w0, none⟩, log⟩ none ([] ++ [bi.type]) bi) =
            (.ok (), ⟨p, ⟨s5, none⟩, log ++ [.enter none ([] ++ [bi.type]) bi]⟩) := by
        have hq : Rewrite.handler F d t go f ⟨(), bi, [] ++ [bi.type]⟩ = call F (.start bi) (.readPayload (Rewrite.withPayload F go f bi)) := by
          unfold Rewrite.handler
          rw [if_pos hx]
        rw [hq, call_run (x := x) (w := s1) h1]
        have e2 : ∀ st : TSt Edit.St Unit, (tryM (liftP (readPayloadP BoxMap.std d bi)) : TM Edit.St Unit _) st =
            (.ok (.ok (box, n)), { st with pos := p }) := by
          intro st
          unfold tryM; rw [liftP_run, readPayloadP_ok hd hb.inside, hu]
        rw [runProg, M.bind_ok (e2 _)]
        have has : box.assert go = some box.sv := by
          unfold BoxVal.assert
          exact if_pos hgo
        simp only [Rewrite.withPayload, has]
        rw [call_run (x := x2) (w := s4) h5, call_run (x := x3) (w := s5) h7]
        rfl
      obtain ⟨vs, q, L, e⟩ := ih fu (sub64 total bi.size) (nextCtx ctx bi)
        ⟨pos + bi.size, ⟨s5, none⟩, _⟩ _ w hwf (fun b hb => hl b (List.mem_cons_of_mem _ hb)) (by omega) hlt rfl h8
      exact ⟨_, _, _, (placed_step hd hp' hr).trans (map_ok (f := fun vs => _ :: vs) e)⟩
    · rw [if_neg hx] at hw
      obtain ⟨x, s1, r2, h1, h2⟩ := runOps_cons_inv hw
      have hr : runProg BoxMap.std d ([] ++ [bi.type]) bi
          (fun co p => readStructure BoxMap.std d (Rewrite.handler F d t go f) fu (some bi) (sub64 (add64 bi.offset bi.size) co) false
            ([] ++ [bi.type]) (childCtx bi) p)
          (Rewrite.handler F d t go f ⟨(), bi, [] ++ [bi.type]⟩) 0
          (entered ⟨pos + bi.headerSize, ⟨w0, none⟩, log⟩ none ([] ++ [bi.type]) bi) =
            (.ok (), ⟨bi.offset + bi.size, ⟨s1, none⟩, log ++ [.enter none ([] ++ [bi.type]) bi]⟩) := by
        have hq : Rewrite.handler F d t go f ⟨(), bi, [] ++ [bi.type]⟩ =
            call F (.copy d bi) (.stream (fun _ => bi.offset + bi.size) fun _ => .ret ()) := by
          unfold Rewrite.handler
          rw [if_neg hx]
        rw [hq, call_run (x := x) (w := s1) h1]
        rfl
      obtain ⟨vs, q, L, e⟩ := ih fu (sub64 total bi.size) (nextCtx ctx bi)
        ⟨pos + bi.size, ⟨s1, none⟩, _⟩ _ w hwf (fun b hb => hl b (List.mem_cons_of_mem _ hb)) (by omega) hlt rfl h2
      exact ⟨_, _, _, (placed_step hd hp' hr).trans (map_ok (f := fun vs => _ :: vs) e)⟩

/-- the bytes of the calls -/
theorem rewriteTree_ser (hd : d.length ≤ maxAlloc) (t : BoxType) (go : String) (f : SV → SV) (new : BoxInfo → Bytes) :
    ∀ (l : List BoxInfo) (ctx : Ctx) (pos : Nat), RootRow d l ctx pos → (∀ bi ∈ l, bi.type = t → Rewritable d go f bi (new bi)) →
    (rewriteTree d t f l).Fits ∧ (rewriteTree d t f l).ser = rewritten d t new l
  | [], _, _, _, _ => ⟨trivial, rfl⟩
  | bi :: l, ctx, pos, ⟨hp, hw⟩, hl => by
    obtain ⟨h1, h2⟩ := rewriteTree_ser hd t go f new l _ _ hw (fun b hb => hl b (List.mem_cons_of_mem _ hb))
    simp only [rewriteTree, rewritten, List.flatMap_cons]
    by_cases hx : bi.type = t
    · obtain ⟨⟨box, n, p, hu, hgo, k, hm⟩, hfit⟩ := hl bi List.mem_cons_self hx
      have hdec : decodedBox d bi = (box.bd, box.sv) := by
        unfold decodedBox
        rw [hu]
      rw [if_pos hx, if_pos hx, hdec]
      simp only [WTree.Fits, WTree.ser, hm, List.append_nil, h2, rewritten]
      exact ⟨⟨hfit, ⟨⟨k, rfl⟩, trivial⟩, h1⟩, by rw [hx]⟩
    · rw [if_neg hx, if_neg hx]
      refine ⟨⟨by rw [hp.offset]; exact hp.inFile, by simp only [maxAlloc] at hd; omega, h1⟩, ?_⟩
      simp only [WTree.ser, h2, rewritten]
      rfl

/-- **C72** — For every file that is a row of boxes, every box type and every change of its values: the program of the README succeeds, and the
output file has the boxes of the input, in order; those of another type byte for byte, those of the type given with a header of the same form, the new size
and the encoding of the changed value. -/
theorem rewrite_boxes (hd : d.length ≤ 2 ^ 48) (l : List BoxInfo) (hw : RootRow d l {} 0) (t : BoxType) (go : String) (f : SV → SV)
    (new : BoxInfo → Bytes) (hl : ∀ bi ∈ l, bi.type = t → Rewritable d go f bi (new bi)) (hlen : (rewritten d t new l).length < 2 ^ 63)
    (fuel : Nat) (hf : l.length < fuel) : rewriteFile noFaults d t go f fuel = (.ok (), rewritten d t new l) := by
  have hd' : d.length ≤ maxAlloc := hd
  obtain ⟨h1, h2⟩ := rewriteTree_ser hd' t go f new l _ _ hw hl
  obtain ⟨calls, e⟩ := tree_ok (rewriteTree d t f l) (WrSt.new ⟨[], 0, 0⟩) h1 (by rw [h2]; simp only [WrSt.new]; omega)
  obtain ⟨vs, q, L, r⟩ := rewrite_run hd' noFaults t go f new l fuel 0 {} ⟨0, ⟨WrSt.new ⟨[], 0, 0⟩, none⟩, []⟩ _ _ hw hl hf (by decide) rfl e
  have e1 : (liftP (seekStartP 0) : TM Edit.St Unit Nat) ⟨0, ⟨WrSt.new ⟨[], 0, 0⟩, none⟩, []⟩ =
      (.ok 0, ⟨0, ⟨WrSt.new ⟨[], 0, 0⟩, none⟩, []⟩) := rfl
  have hr : readBoxStructure BoxMap.std d (Rewrite.handler noFaults d t go f) fuel ()
      ⟨0, ⟨WrSt.new ⟨[], 0, 0⟩, none⟩, []⟩ = _ := (M.bind_ok e1).trans r
  unfold rewriteFile
  rw [hr]
  simp only [Prod.mk.injEq, true_and]
  show writeAt [] 0 _ = _
  rw [h2]
  simp [writeAt]

/-! ## The `emsg` boxes of the README -/

/-- The payload of an event message, byte by byte, ISO/IEC 23009-1 §5.10.3.3. -/
def Event.payload (e : Event) (version : Nat) : Bytes :=
  Form.bigEndian 1 version ++ Form.bigEndian 1 e.flags.1 ++ Form.bigEndian 1 e.flags.2.1 ++ Form.bigEndian 1 e.flags.2.2 ++
  (if version = 0 then
    e.scheme ++ [0] ++ e.value ++ [0] ++
    Form.bigEndian 4 e.timescale ++ Form.bigEndian 4 e.time ++ Form.bigEndian 4 e.duration ++ Form.bigEndian 4 e.id
   else
    Form.bigEndian 4 e.timescale ++ Form.bigEndian 8 e.time ++ Form.bigEndian 4 e.duration ++ Form.bigEndian 4 e.id ++
    e.scheme ++ [0] ++ e.value ++ [0]) ++
  e.data

theorem Event.payload_bits (e : Event) (version : Nat) : bytesBits (e.payload version) = e.bits version := by
  unfold Event.payload Event.bits
  simp only [bigEndian_eq, bytesBits_append, bytesBits_be, cstring]
  have h0 : bytesBits [0] = List.replicate 8 false := by decide
  split <;> simp only [bytesBits_append, bytesBits_be, h0, List.append_assoc]

theorem std_emsg (ctx : Ctx) : BoxMap.std.getBoxDef tEmsg ctx = some Cat.bdEmsg := by
  refine Props.std_def (by decide +kernel) ?_
  unfold Cat.allDefs
  simp only [List.forall_mem_cons]
  repeat' apply And.intro
  all_goals first
    | (intro _; rfl)
    | (intro _; trivial)
    | (intro h; exact absurd h (by decide))
    | (intro x hx; exact absurd hx (by simp))

/-- An `emsg` box of the file: its payload is this event message. -/
structure EmsgBox (d : Bytes) (bi : BoxInfo) (e : Event) (version : Nat) (msg : Bytes) : Prop where
  known : version = 0 ∨ version = 1
  valid : e.Valid version
  payload : (d.drop (bi.offset + bi.headerSize)).take (bi.size - bi.headerSize) = e.payload version
  room : e.scheme.length + e.value.length + msg.length < 2 ^ 47
  fits : Form.of bi = .small → 8 + ({ e with data := msg }.payload version).length < 2 ^ 32

theorem emsg_rewritable (hd : d.length ≤ 2 ^ 48) {bi : BoxInfo} {e : Event} {v : Nat} {msg : Bytes} (ht : bi.type = tEmsg)
    (h : EmsgBox d bi e v msg) (hin : bi.offset + bi.size ≤ d.length) (hwh : bi.headerSize ≤ bi.size) :
    Rewritable d "Emsg" (setMessage msg) bi ({ e with data := msg }.payload v) := by
  refine ⟨?_, h.fits⟩
  obtain ⟨p, hp1, hp2, hp3⟩ := emsg_encodes e v h.known h.valid bi.ctx
  have hv' : Event.Valid { e with data := msg } v := ⟨h.valid.flags, h.valid.scheme, h.valid.value, h.valid.timescale, h.valid.time, h.valid.duration,
    h.valid.id, h.room⟩
  obtain ⟨q, hq1, hq2, -⟩ := emsg_encodes { e with data := msg } v h.known hv' bi.ctx
  have ep : p = e.payload v := bytesBits_inj (by rw [hp1, Event.payload_bits])
  have eq : q = { e with data := msg }.payload v := bytesBits_inj (by rw [hq1, Event.payload_bits])
  have hl : (d.take (bi.offset + bi.headerSize)).length = bi.offset + bi.headerSize := by
    rw [List.length_take]; omega
  have hpl : p.length = bi.size - bi.headerSize := by
    rw [ep, ← h.payload, List.length_take, List.length_drop]
    omega
  have hd2 : d.take (bi.offset + bi.headerSize) ++ p ++ d.drop (bi.offset + bi.headerSize + p.length) = d := by
    have e1 : d.drop (bi.offset + bi.headerSize + (bi.size - bi.headerSize)) = (d.drop (bi.offset + bi.headerSize)).drop (bi.size - bi.headerSize) :=
      List.drop_drop.symm
    rw [hpl, ep, ← h.payload, List.append_assoc, e1, List.take_append_drop, List.take_append_drop]
  have hu := hp3 (d.take (bi.offset + bi.headerSize)) (d.drop (bi.offset + bi.headerSize + p.length)) (by rw [hd2]; omega)
  rw [hd2, hl, hpl] at hu
  refine ⟨⟨Cat.bdEmsg, bi.type, e.toGo v⟩, p.length, bi.offset + bi.headerSize + (bi.size - bi.headerSize), ?_, rfl, q.length, ?_⟩
  · unfold BoxMap.unmarshalAny BoxMap.new
    rw [ht, std_emsg]
    simp only
    rw [hu, hpl]
  · rw [← eq]
    have hs : setMessage msg (e.toGo v) = { e with data := msg }.toGo v := by
      unfold setMessage Event.toGo
      rfl
    show marshalBox Cat.bdEmsg memSink bi.ctx (setMessage msg (e.toGo v)) [] = _
    rw [hs, hq2, List.nil_append]

theorem rootRow_mem {bi : BoxInfo} : ∀ (l : List BoxInfo) (ctx : Ctx) (pos : Nat), RootRow d l ctx pos → bi ∈ l →
    bi.offset + bi.size ≤ d.length ∧ bi.headerSize ≤ bi.size
  | b :: l, ctx, pos, ⟨hp, hw⟩, h => by
    rcases List.mem_cons.1 h with rfl | h
    · exact ⟨by rw [hp.offset]; exact hp.inFile, hp.whole⟩
    · exact rootRow_mem l _ _ hw h

/-- **C72**, the program as printed, for any new message — For every file that is a row of boxes in which the top-level `emsg` boxes hold event messages
of version 0 or 1: in the output these boxes have the new message and all other fields as they were, and all other boxes are as they were. -/
theorem readme_rewrites (hd : d.length ≤ 2 ^ 48) (l : List BoxInfo) (hw : RootRow d l {} 0) (msg : Bytes) (ev : BoxInfo → Event × Nat)
    (he : ∀ bi ∈ l, bi.type = tEmsg → EmsgBox d bi (ev bi).1 (ev bi).2 msg)
    (hlen : (rewritten d tEmsg (fun bi => { (ev bi).1 with data := msg }.payload (ev bi).2) l).length < 2 ^ 63) (fuel : Nat) (hf : l.length < fuel) :
    rewriteFile noFaults d tEmsg "Emsg" (setMessage msg) fuel =
      (.ok (), rewritten d tEmsg (fun bi => { (ev bi).1 with data := msg }.payload (ev bi).2) l) := by
  refine rewrite_boxes hd l hw tEmsg "Emsg" (setMessage msg) _ (fun bi hb ht => ?_) hlen fuel hf
  obtain ⟨h1, h2⟩ := rootRow_mem l _ _ hw hb
  exact emsg_rewritable hd ht (he bi hb ht) h1 h2

/-! ## A case -/

/-- `free`, `emsg` (version 1), an `emsg` box (version 0) up to the end of the file -/
def eventFile : Bytes := [0, 0, 0, 9, 0x66, 0x72, 0x65, 0x65, 7] ++
  ([0, 0, 0, 37, 0x65, 0x6d, 0x73, 0x67, 1, 0, 0, 0, 0, 0, 3, 0xe8, 0, 0, 0, 0, 0, 0, 0, 9, 0, 0, 0, 5, 0, 0, 0, 1, 0x75, 0, 0x31, 0, 0xff] ++
  [0, 0, 0, 0, 0x65, 0x6d, 0x73, 0x67, 0, 0, 0, 0, 0x75, 0, 0, 0, 0, 3, 0xe8, 0, 0, 0, 2, 0, 0, 0, 5, 0, 0, 0, 2])

def eventBoxes : List BoxInfo := [⟨0, 9, 8, ⟨0x66, 0x72, 0x65, 0x65⟩, false, {}⟩, ⟨9, 37, 8, tEmsg, false, {}⟩, ⟨46, 31, 8, tEmsg, true, {}⟩]

def eventEvents (bi : BoxInfo) : Event × Nat :=
  if bi.offset = 9 then (⟨(0, 0, 0), [0x75], [0x31], 1000, 9, 5, 1, [0xff]⟩, 1) else (⟨(0, 0, 0), [0x75], [], 1000, 2, 5, 2, []⟩, 0)

/-- The program of the README makes of it: -/
example : readme noFaults eventFile 4 = (.ok (), [0, 0, 0, 9, 0x66, 0x72, 0x65, 0x65, 7] ++
    ([0, 0, 0, 47, 0x65, 0x6d, 0x73, 0x67, 1, 0, 0, 0, 0, 0, 3, 0xe8, 0, 0, 0, 0, 0, 0, 0, 9, 0, 0, 0, 5, 0, 0, 0, 1, 0x75, 0, 0x31, 0] ++ hello ++
    [0, 0, 0, 0, 0x65, 0x6d, 0x73, 0x67, 0, 0, 0, 0, 0x75, 0, 0, 0, 0, 3, 0xe8, 0, 0, 0, 2, 0, 0, 0, 5, 0, 0, 0, 2] ++ hello)) := by
  refine (readme_rewrites (d := eventFile) (by decide) eventBoxes
    ⟨⟨rfl, by decide +kernel, by decide, by decide, .inl rfl, ownCtx_plain rfl (by decide) (by decide)⟩,
     ⟨rfl, by decide +kernel, by decide, by decide, .inl rfl, ownCtx_plain rfl (by decide) (by decide)⟩,
     ⟨rfl, by decide +kernel, by decide, by decide, .inl rfl, ownCtx_plain rfl (by decide) (by decide)⟩, show _ = _ by decide⟩
    hello eventEvents ?_ (by decide +kernel) 4 (by decide)).trans (by decide +kernel)
  intro bi hb
  simp only [eventBoxes, List.mem_cons, List.not_mem_nil, or_false] at hb
  rcases hb with rfl | rfl | rfl
  · intro h; exact absurd h (by decide)
  · intro _
    exact ⟨.inr rfl, ⟨by decide, by decide, by decide, by decide, by decide, by decide, by decide, by decide⟩, by decide +kernel, by decide, by decide +kernel⟩
  · intro _
    exact ⟨.inl rfl, ⟨by decide, by decide, by decide, by decide, by decide, by decide, by decide, by decide⟩, by decide +kernel, by decide, by decide +kernel⟩

/-! ## Where it does not work -/

/-- If an `emsg` box cannot be decoded, here because of its version, the program stops with an error, and the output is cut off: it ends with
the header of the box. -/
theorem readme_unknown_version : readme noFaults [0, 0, 0, 12, 0x65, 0x6d, 0x73, 0x67, 2, 0, 0, 0, 0, 0, 0, 8, 0x66, 0x72, 0x65, 0x65] 3 =
    (.err .unsupportedVersion, [0, 0, 0, 12, 0x65, 0x6d, 0x73, 0x67]) := by decide +kernel

end Mp4.Props
