import Verif.Lemmas.EditBoxes
import Verif.Lemmas.Decode
import Verif.Props.Edit
import Verif.Props.WriteRead

/-!
# C76: `mp4tool edit` as a function on rows of boxes

`Boxes.edit` (Spec/EditBoxes.lean) is what the command is meant to do, on a file as a tree of boxes with fields.  The theorems say that the
command does that to the bytes, that its output is again the bytes of a row of boxes, which the library reads, and that running the command
on its own output is running it once with the options of both.
-/

namespace Mp4.Boxes

open Mp4 Mp4.Spec

variable {drop drop' : BoxType → Prop} [DecidablePred drop] [DecidablePred drop'] {time time' : Option Nat}

/-! ## composition -/

theorem set_set (n : String) (v w : Val) : ∀ sv : SV, (sv.set n v).set n w = sv.set n w
  | [] => rfl
  | (m, x) :: sv => by
    by_cases h : m = n
    · simp [SV.set, h]
    · simp [SV.set, h, set_set n v w sv]

theorem setTime_version (t : Nat) (sv : SV) : (setTime t sv).version = sv.version := by
  unfold setTime
  split <;> (unfold SV.version SV.full; rw [SV.get_set_ne (by decide)])

theorem setTime_twice (s t : Nat) (sv : SV) : setTime t (setTime s sv) = setTime t sv := by
  have hv := setTime_version s sv
  unfold setTime at hv ⊢
  by_cases h : sv.version = 0
  · rw [if_pos h] at hv ⊢
    rw [if_pos (hv.trans h), if_pos h, set_set]
  · rw [if_neg h] at hv ⊢
    rw [if_neg (fun e => h (hv.symm.trans e)), if_neg h, set_set]

theorem newValue_twice (t : BoxType) (sv : SV) : newValue time' t (newValue time t sv) = newValue (time' <|> time) t sv := by
  cases time' with
  | none => rfl
  | some y =>
    cases time with
    | none => rfl
    | some x =>
      show (if _ then _ else _) = if _ then _ else _
      unfold newValue
      by_cases h : t = ⟨0x74, 0x66, 0x64, 0x74⟩
      · simp only [if_pos h, setTime_twice]
      · simp only [if_neg h]

section
variable {start : BoxInfo} {bd : BoxDef} {sv : SV} {kids rest : Boxes}

theorem edit_drop (h : drop start.type) : (Boxes.box start bd sv kids rest).edit drop time = rest.edit drop time := by
  rw [edit, if_pos h]

theorem edit_mdat (h : ¬ drop start.type) (hm : start.type = ⟨0x6d, 0x64, 0x61, 0x74⟩) :
    (Boxes.box start bd sv kids rest).edit drop time = .box start bd sv kids (rest.edit drop time) := by
  rw [edit, if_neg h, if_pos hm]

theorem edit_keep (h : ¬ drop start.type) (hm : ¬ start.type = ⟨0x6d, 0x64, 0x61, 0x74⟩) : (Boxes.box start bd sv kids rest).edit drop time =
    .box start bd (newValue time start.type sv) (kids.edit drop time) (rest.edit drop time) := by
  rw [edit, if_neg h, if_neg hm]

end

/-- Editing an edited row is editing it once, with both sets of types dropped and the later time if there is one. -/
theorem edit_edit : ∀ B : Boxes, (B.edit drop time).edit drop' time' = B.edit (fun t => drop t ∨ drop' t) (time' <|> time)
  | .nil => rfl
  | .raw start p rest => by
    have h := edit_edit rest
    by_cases h1 : drop start.type
    · simp [edit, h1, h]
    · by_cases h2 : drop' start.type
      · simp [edit, h1, h2, h]
      · simp [edit, h1, h2, h]
  | .box start bd sv kids rest => by
    have h := edit_edit rest
    have hk := edit_edit kids
    by_cases h1 : drop start.type
    · simp [edit, h1, h]
    · by_cases h2 : drop' start.type
      · by_cases hm : start.type = ⟨0x6d, 0x64, 0x61, 0x74⟩
        · rw [edit_mdat h1 hm, edit_drop h2, edit_drop (.inr h2), h]
        · rw [edit_keep h1 hm, edit_drop h2, edit_drop (.inr h2), h]
      · by_cases hm : start.type = ⟨0x6d, 0x64, 0x61, 0x74⟩
        · rw [edit_mdat h1 hm, edit_mdat h2 hm, edit_mdat (fun e => e.elim h1 h2) hm, h]
        · rw [edit_keep h1 hm, edit_keep h2 hm, edit_keep (fun e => e.elim h1 h2) hm, h, hk, newValue_twice]

theorem edit_congr (h : ∀ t, drop t ↔ drop' t) : ∀ B : Boxes, B.edit drop time = B.edit drop' time
  | .nil => rfl
  | .raw start p rest => by
    simp only [edit, h start.type, edit_congr h rest]
  | .box start bd sv kids rest => by
    simp only [edit, h start.type, edit_congr h rest, edit_congr h kids]

theorem edit_nothing (h : ∀ t, ¬ drop t) : ∀ B : Boxes, B.edit drop none = B
  | .nil => rfl
  | .raw start p rest => by
    simp only [edit, h start.type, if_false, edit_nothing h rest]
  | .box start bd sv kids rest => by
    simp only [edit, h start.type, if_false, edit_nothing h rest, edit_nothing h kids, newValue, ite_self]

/-! ## `mdat` boxes have no children -/

theorem mdat_full {ctx : Ctx} {sv : SV} {size : Nat} (h : fitsIn Cat.bdMdat ctx sv size = true) :
    (bitsBytes (layout Cat.bdMdat ctx sv)).length = size := by
  have hm := fits_mod h
  have hb := bitsBytes_length _ hm
  have ht := fits_typed (by simp [Cat.allDefs]) h
  obtain ⟨l, rfl⟩ : ∃ l, sv = [("Data", .slice l)] := by
    match sv, ht with
    | (n, v) :: r, ht =>
      simp only [Cat.bdMdat, Cat.fsMdat, Fields.ofList, typedFields, Bool.and_eq_true, beq_iff_eq] at ht
      obtain ⟨⟨rfl, hv⟩, hr⟩ := ht
      cases r with
      | cons _ _ => cases hr
      | nil =>
        cases v with
        | slice l => exact ⟨l, rfl⟩
        | _ => cases hv
  unfold fitsIn at h
  simp only [Bool.and_eq_true, beq_iff_eq, decide_eq_true_eq] at h
  have h5 := h.1.1.2
  have h6 : ((layout Cat.bdMdat ctx [("Data", .slice l)]).length == 8 * size) = true := by
    simp [layout, Cat.bdMdat, Cat.fsMdat, Fields.ofList, fitsFields, fitsV, layoutFields, layoutV, present, instField, SV.get, anyVersion,
      silent, before, lengthUnlimited, env, counted] at h5 ⊢
    exact h5.1.2.1
  rw [beq_iff_eq] at h6
  omega

theorem ser_length : ∀ (B : Boxes) (isRoot : Bool) (ctx : Ctx), B.ser isRoot ctx = [] → B = .nil
  | .nil, _, _, _ => rfl
  | .raw st _ _, _, _, h => by
    have := congrArg List.length h
    simp only [ser, List.length_append, Form.header_length, List.length_nil] at this
    have := form_len_pos (Form.of st)
    omega
  | .box st _ _ _ _, _, _, h => by
    have := congrArg List.length h
    simp only [ser, List.length_append, Form.header_length, List.length_nil] at this
    have := form_len_pos (Form.of st)
    omega

theorem mdat_kids {start : BoxInfo} {bd : BoxDef} {sv : SV} {kids rest : Boxes} {isRoot last : Bool} {ctx : Ctx} (hm : start.type = ⟨0x6d, 0x64, 0x61, 0x74⟩)
    (h : (Boxes.box start bd sv kids rest).Ok isRoot last ctx) : kids = .nil := by
  obtain ⟨-, -, h3, h4, -⟩ := h
  have hb : bd = Cat.bdMdat := by
    rw [hm] at h3
    cases h3
    rfl
  subst hb
  have := mdat_full h4
  exact ser_length kids false (kidsCtx isRoot ctx start sv) (List.eq_nil_of_length_eq_zero (by omega))

/-- No box of a type that is to be dropped is left; all others were there. -/
theorem types_edit : ∀ (B : Boxes) (isRoot last : Bool) (ctx : Ctx), B.Ok isRoot last ctx → ∀ t ∈ (B.edit drop time).types, ¬ drop t ∧ t ∈ B.types
  | .nil, _, _, _, _ => by simp [edit, types]
  | .raw start p rest, isRoot, last, ctx, h => by
    intro t ht
    have ih := types_edit rest isRoot last _ h.2.2.2.2
    unfold edit at ht
    split at ht
    · exact ⟨(ih t ht).1, List.mem_cons_of_mem _ (ih t ht).2⟩
    · next hn =>
      rcases List.mem_cons.1 ht with rfl | ht
      · exact ⟨hn, List.mem_cons_self⟩
      · exact ⟨(ih t ht).1, List.mem_cons_of_mem _ (ih t ht).2⟩
  | .box start bd sv kids rest, isRoot, last, ctx, h => by
    intro t ht
    have ih := types_edit rest isRoot last _ h.2.2.2.2.2
    have ihk := types_edit kids false _ _ h.2.2.2.2.1
    have hr : t ∈ (rest.edit drop time).types → ¬ drop t ∧ t ∈ (Boxes.box start bd sv kids rest).types := fun ht =>
      ⟨(ih t ht).1, List.mem_cons_of_mem _ (List.mem_append_right _ (ih t ht).2)⟩
    unfold edit at ht
    split at ht
    · exact hr ht
    · next hn =>
      split at ht
      · next hm =>
        rw [mdat_kids hm h] at ht
        rcases List.mem_cons.1 ht with rfl | ht
        · exact ⟨hn, List.mem_cons_self⟩
        · exact hr ht
      · rcases List.mem_cons.1 ht with rfl | ht
        · exact ⟨hn, List.mem_cons_self⟩
        · rcases List.mem_append.1 ht with ht | ht
          · exact ⟨(ihk t ht).1, List.mem_cons_of_mem _ (List.mem_append_left _ (ihk t ht).2)⟩
          · exact hr ht

/-! ## what is known about raw boxes -/

omit [DecidablePred drop] [DecidablePred drop'] in
theorem opaque_mono (h : ∀ t, drop t → drop' t) : ∀ (B : Boxes) (isRoot : Bool) (ctx : Ctx), B.Opaque drop isRoot ctx → B.Opaque drop' isRoot ctx
  | .nil, _, _, _ => trivial
  | .raw _ _ rest, _, _, ⟨h1, h2⟩ => ⟨fun hn => h1 (fun e => hn (h _ e)), opaque_mono h rest _ _ h2⟩
  | .box _ _ _ kids rest, _, _, ⟨h1, h2⟩ => ⟨opaque_mono h kids _ _ h1, opaque_mono h rest _ _ h2⟩

omit [DecidablePred drop] in
theorem unknown_opaque : ∀ (B : Boxes) (isRoot : Bool) (ctx : Ctx), B.Unknown isRoot ctx → B.Opaque drop isRoot ctx
  | .nil, _, _, _ => trivial
  | .raw _ _ rest, _, _, ⟨h1, h2⟩ => ⟨fun _ => .inr h1, unknown_opaque rest _ _ h2⟩
  | .box _ _ _ kids rest, _, _, ⟨h1, h2⟩ => ⟨unknown_opaque kids _ _ h1, unknown_opaque rest _ _ h2⟩

theorem kidsCtx_new {isRoot : Bool} {ctx : Ctx} {start : BoxInfo} (sv : SV) :
    kidsCtx isRoot ctx start (newValue time start.type sv) = kidsCtx isRoot ctx start sv := by
  unfold kidsCtx
  rw [newValue_ctx]

theorem restCtx_new {isRoot : Bool} {ctx : Ctx} {start : BoxInfo} (sv : SV) :
    restCtx isRoot ctx start (newValue time start.type sv) = restCtx isRoot ctx start sv := by
  unfold restCtx
  rw [newValue_ctx]

theorem restCtx_drop (hf : ¬ drop tFtyp) (hk : ¬ drop tKeys) {isRoot : Bool} {ctx : Ctx} {start : BoxInfo} (sv : SV) (h : drop start.type) :
    restCtx isRoot ctx start sv = ctx :=
  restCtx_plain sv (fun e => hf (e ▸ h)) (fun e => hk (e ▸ h))

theorem opaque_edit (hf : ¬ drop tFtyp) (hk : ¬ drop tKeys) : ∀ (B : Boxes) (isRoot last : Bool) (ctx : Ctx), B.Ok isRoot last ctx → B.Opaque drop isRoot ctx →
    (B.edit drop time).Opaque drop' isRoot ctx
  | .nil, _, _, _, _, _ => trivial
  | .raw start _ rest, _, _, _, hok, ⟨h1, h2⟩ => by
    unfold edit
    split
    · exact opaque_edit hf hk rest _ _ _ hok.2.2.2.2 h2
    · next h => exact ⟨fun _ => h1 h, opaque_edit hf hk rest _ _ _ hok.2.2.2.2 h2⟩
  | .box start bd sv kids rest, isRoot, last, ctx, hok, ⟨h1, h2⟩ => by
    have hrest := opaque_edit hf hk rest _ _ _ hok.2.2.2.2.2 h2
    unfold edit
    split
    · next h =>
      rw [restCtx_drop hf hk sv h] at hrest
      exact hrest
    · split
      · next hm =>
        refine ⟨?_, hrest⟩
        rw [mdat_kids hm hok]
        trivial
      · refine ⟨?_, ?_⟩
        · rw [kidsCtx_new]
          exact opaque_edit hf hk kids _ _ _ hok.2.2.2.2.1 h1
        · rw [restCtx_new]
          exact hrest

theorem unknown_edit (hf : ¬ drop tFtyp) (hk : ¬ drop tKeys) : ∀ (B : Boxes) (isRoot : Bool) (ctx : Ctx), B.Unknown isRoot ctx →
    (B.edit drop time).Unknown isRoot ctx
  | .nil, _, _, _ => trivial
  | .raw start _ rest, _, _, ⟨h1, h2⟩ => by
    unfold edit
    split
    · exact unknown_edit hf hk rest _ _ h2
    · exact ⟨h1, unknown_edit hf hk rest _ _ h2⟩
  | .box start _ sv kids rest, isRoot, ctx, ⟨h1, h2⟩ => by
    unfold edit
    split
    · next h =>
      rw [restCtx_drop hf hk sv h] at h2
      exact unknown_edit hf hk rest _ _ h2
    · split
      · exact ⟨h1, unknown_edit hf hk rest _ _ h2⟩
      · refine ⟨?_, ?_⟩
        · rw [kidsCtx_new]
          exact unknown_edit hf hk kids _ _ h1
        · rw [restCtx_new]
          exact unknown_edit hf hk rest _ _ h2

end Mp4.Boxes

namespace Mp4.Props

open Mp4 Mp4.Edit

variable {S P V : Type}

/-! ## the command -/

/-- The types that `-drop` names. -/
abbrev ToDrop (names : List Bytes) (t : BoxType) : Prop := t.toStr ∈ names

/-- The command, run on the bytes of a row of boxes, succeeds and writes the bytes of the edited row. -/
theorem edit_boxes (B : Boxes) (hok : B.Ok true true {}) (hlen : (B.ser true {}).length ≤ 2 ^ 48) (time : Option Nat)
    (ht : ∀ t, time = some t → t < 2 ^ 64 - 1) (names : List Bytes) (hn : ∀ s ∈ names, NoComma s)
    (hraw : B.Opaque (ToDrop names) true {}) (hf : ¬ ToDrop names tFtyp) (hk : ¬ ToDrop names tKeys)
    (fuel : Nat) (hfuel : (B.forest true {} 0).count < fuel) :
    editFile noFaults (B.ser true {}) (Config.ofOptions time (joinComma names)) fuel = (.ok (), (B.edit (ToDrop names) time).ser true {}) := by
  obtain ⟨hwf, -, -⟩ := Boxes.wf_read hlen B true true {} [] [] [] 0 hok (by simp) (fun _ => rfl) (fun _ => rfl) (by simp) (.inl rfl)
  obtain ⟨h1, h2, h3⟩ := Boxes.edited_tree (drop := ToDrop names) (time := time) hlen ht (splitComma (joinComma names)) hf hk (drop_option hn)
    B true true {} [] [] hok hraw (by simp)
  have hle := (Boxes.Ok_edit (drop := ToDrop names) (time := time) (fun t e => Nat.lt_of_lt_of_le (ht t e) (by decide)) hf hk B true true true {} id hok).2
  have hl : (0 : Nat) + (editTree (B.ser true {}) (Config.ofOptions time (joinComma names)) (B.forest true {} 0)).ser.length < 2 ^ 63 := by
    have : (editTree (B.ser true {}) (Config.ofOptions time (joinComma names)) (B.forest true {} 0)).ser = _ := h3
    rw [this]
    omega
  obtain ⟨calls, e⟩ := tree_ok (editTree (B.ser true {}) (Config.ofOptions time (joinComma names)) (B.forest true {} 0)) (WrSt.new ⟨[], 0, 0⟩) h2 hl
  obtain ⟨vs, q, L, r⟩ := edit_run hlen noFaults (Config.ofOptions time (joinComma names)) (B.forest true {} 0) fuel none 0 true [] {}
    ⟨0, ⟨WrSt.new ⟨[], 0, 0⟩, none⟩, []⟩ _ _ hwf h1 hfuel (by decide) rfl e
  have e1 : (liftP (seekStartP 0) : TM Edit.St Unit Nat) ⟨0, ⟨WrSt.new ⟨[], 0, 0⟩, none⟩, []⟩ =
      (.ok 0, ⟨0, ⟨WrSt.new ⟨[], 0, 0⟩, none⟩, []⟩) := rfl
  have hr : readBoxStructure BoxMap.std (B.ser true {}) (handler noFaults (B.ser true {}) (Config.ofOptions time (joinComma names))) fuel ()
      ⟨0, ⟨WrSt.new ⟨[], 0, 0⟩, none⟩, []⟩ = _ := (M.bind_ok e1).trans r
  unfold editFile
  rw [hr]
  simp only [Prod.mk.injEq, true_and]
  show writeAt [] 0 _ = _
  rw [show (editTree (B.ser true {}) (Config.ofOptions time (joinComma names)) (B.forest true {} 0)).ser = _ from h3]
  simp [writeAt]

/-- **C76** — Every file that is the bytes of a row of boxes (any number, nested to any depth, with any fields that can be represented and header forms as
asked for; boxes of unknown types have any payload): `mp4tool edit` with any list of types to be dropped, other than `ftyp` and `keys`, and with or without
a decode time, writes a file that the library reads: `ReadBoxStructure` of the output, expanding every box of known type, finds exactly the boxes of
the edited row (`Boxes.edit`), in their order and nesting, with offsets and sizes that are true of the output, and ends without an error;
`ReadPayload` of each gives the fields that the box had in the input, apart from the decode time; unknown payloads are what they were;
and there is no box of a dropped type at any level. -/
theorem edit_then_read (B : Boxes) (hok : B.Ok true true {}) (hraw : B.Unknown true {}) (hlen : (B.ser true {}).length ≤ 2 ^ 48) (time : Option Nat)
    (ht : ∀ t, time = some t → t < 2 ^ 64 - 1) (names : List Bytes) (hn : ∀ s ∈ names, NoComma s)
    (hf : ¬ ToDrop names tFtyp) (hk : ¬ ToDrop names tKeys)
    (fuel : Nat) (hfuel : (B.forest true {} 0).count < fuel)
    (note : Handle P → S → S) (sub : Handle P → P) (val : Handle P → List V → V) (p : P) (s : S) (pos fuel' : Nat)
    (hf' : ((B.edit (ToDrop names) time).forest true {} 0).count < fuel') :
    ∃ out, editFile noFaults (B.ser true {}) (Config.ofOptions time (joinComma names)) fuel = (.ok (), out) ∧
      (let E := B.edit (ToDrop names) time
       let h := walker note (fun h => BoxMap.std.isSupported h.info.type h.info.ctx) sub val
       (∃ vs, (traverse out h fuel' p s pos).1 = .ok vs) ∧
       enters (traverse out h fuel' p s pos).2.log = (E.forest true {} 0).boxes none [] ∧
       (∀ x ∈ E.fields true {} 0, ∀ p0, ∃ n p, readPayloadP BoxMap.std out x.1 p0 = (.ok (⟨x.2.1, x.1.type, x.2.2⟩, n), p)) ∧
       (∀ x ∈ E.payloads true {} 0, (out.drop (x.1.offset + x.1.headerSize)).take (x.1.size - x.1.headerSize) = x.2) ∧
       ∀ t ∈ E.types, ¬ ToDrop names t) := by
  refine ⟨_, edit_boxes B hok hlen time ht names hn (Boxes.unknown_opaque B _ _ hraw) hf hk fuel hfuel, ?_⟩
  obtain ⟨hE, hle⟩ := Boxes.Ok_edit (drop := ToDrop names) (time := time) (fun t e => Nat.lt_of_lt_of_le (ht t e) (by decide)) hf hk B true true true {} id hok
  have hl : ((B.edit (ToDrop names) time).ser true {}).length ≤ 2 ^ 48 := Nat.le_trans hle hlen
  obtain ⟨w1, w2, w3⟩ := Boxes.wf_read hl (B.edit (ToDrop names) time) true true {} [] [] [] 0 hE (by simp) (fun _ => rfl) (fun _ => rfl)
    (by simp) (.inl rfl)
  obtain ⟨a, b⟩ := visits_every_box_in_order hl _ w1 (leaves_raw _ true {} 0 [] (Boxes.unknown_edit hf hk B _ _ hraw)) note sub val p s pos fuel' hf'
  refine ⟨a, b, fun x hx p0 => ?_, w3, fun t ht => (Boxes.types_edit B true true {} hok t ht).1⟩
  obtain ⟨n, hn, hle⟩ := w2 x hx
  refine ⟨n, x.1.offset + x.1.headerSize + n, ?_⟩
  unfold readPayloadP
  rw [M.bind_ok (seekToPayload_ok (show ((B.edit (ToDrop names) time).ser true {}).length ≤ maxAlloc from hl) hle p0)]
  exact hn

/-- Running the command on its output is running it once, with both lists and the later time if there is one. -/
theorem edit_twice (B : Boxes) (hok : B.Ok true true {}) (hlen : (B.ser true {}).length ≤ 2 ^ 48) (t1 t2 : Option Nat)
    (h1 : ∀ t, t1 = some t → t < 2 ^ 64 - 1) (h2 : ∀ t, t2 = some t → t < 2 ^ 64 - 1) (names1 names2 : List Bytes)
    (hn1 : ∀ s ∈ names1, NoComma s) (hn2 : ∀ s ∈ names2, NoComma s) (hraw : B.Opaque (ToDrop names1) true {})
    (hf : ¬ ToDrop (names1 ++ names2) tFtyp) (hk : ¬ ToDrop (names1 ++ names2) tKeys) :
    ∃ N, ∀ fuel, N < fuel → ∃ out1 out2,
      editFile noFaults (B.ser true {}) (Config.ofOptions t1 (joinComma names1)) fuel = (.ok (), out1) ∧
      editFile noFaults out1 (Config.ofOptions t2 (joinComma names2)) fuel = (.ok (), out2) ∧
      editFile noFaults (B.ser true {}) (Config.ofOptions (t2 <|> t1) (joinComma (names1 ++ names2))) fuel = (.ok (), out2) := by
  have hf1 : ¬ ToDrop names1 tFtyp := fun e => hf (List.mem_append_left _ e)
  have hf2 : ¬ ToDrop names2 tFtyp := fun e => hf (List.mem_append_right _ e)
  have hk1 : ¬ ToDrop names1 tKeys := fun e => hk (List.mem_append_left _ e)
  have hk2 : ¬ ToDrop names2 tKeys := fun e => hk (List.mem_append_right _ e)
  obtain ⟨hE, hle⟩ := Boxes.Ok_edit (drop := ToDrop names1) (time := t1) (fun t e => Nat.lt_of_lt_of_le (h1 t e) (by decide)) hf1 hk1 B true true true {} id hok
  refine ⟨(B.forest true {} 0).count + ((B.edit (ToDrop names1) t1).forest true {} 0).count, fun fuel hfuel => ⟨_, _,
    edit_boxes B hok hlen t1 h1 names1 hn1 hraw hf1 hk1 fuel (by omega),
    edit_boxes _ hE (Nat.le_trans hle hlen) t2 h2 names2 hn2 (Boxes.opaque_edit hf1 hk1 B _ _ _ hok hraw) hf2 hk2 fuel (by omega), ?_⟩⟩
  have h12 : ∀ t, (t2 <|> t1) = some t → t < 2 ^ 64 - 1 := by
    intro t e
    cases t2 with
    | none => exact h1 t e
    | some x => exact h2 t e
  rw [edit_boxes B hok hlen _ h12 (names1 ++ names2) (fun s hs => (List.mem_append.1 hs).elim (hn1 s) (hn2 s))
    (Boxes.opaque_mono (fun t h => List.mem_append_left _ h) B _ _ hraw) hf hk fuel (by omega), Boxes.edit_edit]
  congr 2
  exact Boxes.edit_congr (fun t => List.mem_append) B

/-- Running the command a second time with the same options changes nothing. -/
theorem edit_again (B : Boxes) (hok : B.Ok true true {}) (hlen : (B.ser true {}).length ≤ 2 ^ 48) (time : Option Nat)
    (ht : ∀ t, time = some t → t < 2 ^ 64 - 1) (names : List Bytes) (hn : ∀ s ∈ names, NoComma s)
    (hraw : B.Opaque (ToDrop names) true {}) (hf : ¬ ToDrop names tFtyp) (hk : ¬ ToDrop names tKeys) :
    ∃ N, ∀ fuel, N < fuel → ∃ out,
      editFile noFaults (B.ser true {}) (Config.ofOptions time (joinComma names)) fuel = (.ok (), out) ∧
      editFile noFaults out (Config.ofOptions time (joinComma names)) fuel = (.ok (), out) := by
  obtain ⟨hE, hle⟩ := Boxes.Ok_edit (drop := ToDrop names) (time := time) (fun t e => Nat.lt_of_lt_of_le (ht t e) (by decide)) hf hk B true true true {} id hok
  refine ⟨(B.forest true {} 0).count + ((B.edit (ToDrop names) time).forest true {} 0).count, fun fuel hfuel => ⟨_,
    edit_boxes B hok hlen time ht names hn hraw hf hk fuel (by omega), ?_⟩⟩
  rw [edit_boxes _ hE (Nat.le_trans hle hlen) time ht names hn (Boxes.opaque_edit hf hk B _ _ _ hok hraw) hf hk fuel (by omega), Boxes.edit_edit,
    show (time <|> time) = time by cases time <;> rfl]
  congr 2
  exact Boxes.edit_congr (fun t => or_self_iff) B

/-! ## a case -/

/-- `free`, `moof` with a 64-bit size, with `traf` with `tfdt` and a box of unknown type, `mdat` up to the end of the file -/
def editRow : Boxes :=
  .box { type := ⟨0x66, 0x72, 0x65, 0x65⟩ } Cat.bdFree [("Data", .slice [.uint 7])] .nil
    (.box { type := ⟨0x6d, 0x6f, 0x6f, 0x66⟩, headerSize := 16 } Cat.bdMoof []
      (.box { type := ⟨0x74, 0x72, 0x61, 0x66⟩ } Cat.bdTraf []
        (.box { type := ⟨0x74, 0x66, 0x64, 0x74⟩ } Cat.bdTfdt [Spec.fullBox 1 0 0 0, ("BaseMediaDecodeTimeV0", .uint 0), ("BaseMediaDecodeTimeV1", .uint 9)] .nil
          (.raw { type := ⟨0x78, 0x78, 0x78, 0x78⟩ } [1, 2, 3] .nil)) .nil)
      (.box { type := ⟨0x6d, 0x64, 0x61, 0x74⟩, extendToEOF := true } Cat.bdMdat [("Data", .slice [.uint 1, .uint 2])] .nil .nil))

set_option maxRecDepth 4000 in
theorem editRow_ok : editRow.Ok true true {} ∧ editRow.Unknown true {} :=
  ⟨⟨by decide +kernel, by decide, rfl, by decide +kernel, trivial,
    by decide +kernel, by decide, rfl, by decide +kernel,
      ⟨by decide +kernel, by decide, rfl, by decide +kernel,
        ⟨by decide +kernel, by decide, rfl, by decide +kernel, trivial, by decide, by decide, by decide, by decide, trivial⟩, trivial⟩,
    by decide +kernel, by decide, rfl, by decide +kernel, trivial, trivial⟩,
   ⟨trivial, ⟨⟨trivial, by decide +kernel, trivial⟩, trivial⟩, trivial, trivial⟩⟩

/-- the hypotheses are met, and what becomes of the row with `-drop free,xxxx -base_media_decode_time 258` -/
example : (editRow.ser true {}).length = 74 ∧ (∀ s ∈ editExNames, NoComma s) ∧ ¬ ToDrop editExNames tFtyp ∧ ¬ ToDrop editExNames tKeys ∧
    (editRow.forest true {} 0).count = 6 ∧
    (editRow.edit (ToDrop editExNames) (some 258)).ser true {} =
      [0, 0, 0, 1, 0x6d, 0x6f, 0x6f, 0x66, 0, 0, 0, 0, 0, 0, 0, 44, 0, 0, 0, 28, 0x74, 0x72, 0x61, 0x66,
      0, 0, 0, 20, 0x74, 0x66, 0x64, 0x74, 1, 0, 0, 0, 0, 0, 0, 0, 0, 0, 1, 2, 0, 0, 0, 0, 0x6d, 0x64, 0x61, 0x74, 1, 2] := by
  refine ⟨by decide +kernel, by unfold NoComma; decide, by decide, by decide, by decide +kernel, by decide +kernel⟩

/-! ## why `ftyp` is not to be dropped -/

/-- `ftyp` of a QuickTime file and an `mp4a` of version 1, which in such a file ends with 16 bytes of QuickTime data -/
def qtAudio : Bytes := [0, 0, 0, 20, 0x66, 0x74, 0x79, 0x70, 0x71, 0x74, 0x20, 0x20, 0, 0, 0, 0, 0x71, 0x74, 0x20, 0x20,
  0, 0, 0, 52, 0x6d, 0x70, 0x34, 0x61, 0, 0, 0, 0, 0, 0, 0, 1, 0, 1, 0, 0, 0, 0, 0, 0, 0, 2, 0, 16, 0, 0, 0, 0, 0xbb, 0x80, 0, 0,
  0, 0, 0, 16, 0x78, 0x78, 0x78, 0x78, 1, 2, 3, 4, 5, 6, 7, 8]

/-- With `ftyp` dropped the QuickTime data of the `mp4a` is taken for a box: a second run that drops `xxxx` removes it, which one run with both names does not. -/
theorem edit_twice_needs_ftyp :
    editFile noFaults qtAudio (Config.ofOptions none [0x66, 0x74, 0x79, 0x70]) 5 = (.ok (), qtAudio.drop 20) ∧
    editFile noFaults (qtAudio.drop 20) (Config.ofOptions none [0x78, 0x78, 0x78, 0x78]) 5 =
      (.ok (), [0, 0, 0, 36] ++ (qtAudio.drop 24).take 32) ∧
    editFile noFaults qtAudio (Config.ofOptions none [0x66, 0x74, 0x79, 0x70, 0x2c, 0x78, 0x78, 0x78, 0x78]) 5 = (.ok (), qtAudio.drop 20) := by
  refine ⟨by decide +kernel, by decide +kernel, by decide +kernel⟩

end Mp4.Props
