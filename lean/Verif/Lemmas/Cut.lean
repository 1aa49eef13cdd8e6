import Verif.Lemmas.SimBox
import Verif.Lemmas.Forest
import Verif.Lemmas.SourceRead

/-!
# Reading the beginning of a file

`d.take n` against `d`: what is done with the part is what is done with the whole, until something fails because the part is at its end.
-/

namespace Mp4.Cut

open Mp4 Mp4.Props Mp4.Spec

variable {S P V α β : Type} {d : Bytes} {n : Nat}

/-- It has come to a stop. -/
def Stops (o : Out α) : Prop := (∃ e, o = .err e) ∨ o = .hang

/-- at a position: the same, or it stops -/
def PCut (ms ml : PM α) (pos : Nat) : Prop := ms pos = ml pos ∨ Stops (ms pos).1

theorem PCut.same (m : PM α) (pos : Nat) : PCut m m pos := .inl rfl

theorem PCut.bind {ms ml : PM α} {fs fl : α → PM β} {pos : Nat} (h : PCut ms ml pos) (hf : ∀ a p, ms pos = (.ok a, p) → PCut (fs a) (fl a) p) :
    PCut (ms >>= fs) (ml >>= fl) pos := by
  unfold PCut
  cases e : ms pos with
  | mk o p =>
  cases o with
  | ok a =>
    rcases h with h | h
    · rw [M.bind_ok e, M.bind_ok (h.symm.trans e)]
      exact hf a p e
    · rw [e] at h
      rcases h with ⟨_, h⟩ | h <;> cases h
  | err x => right; rw [M.bind_err e]; exact .inl ⟨x, rfl⟩
  | hang => right; rw [M.bind_hang e]; exact .inr rfl
  | panic =>
    rcases h with h | h
    · left; rw [M.bind_panic e, M.bind_panic (h.symm.trans e)]
    · rw [e] at h
      rcases h with ⟨_, h⟩ | h <;> cases h

theorem agree_take (hn : n ≤ d.length) (hd : d.length ≤ maxAlloc) : Agree n (d.take n) d :=
  ⟨by rw [List.take_take, Nat.min_self], by rw [List.length_take]; omega, hn, by simp only [maxAlloc, U64] at *; omega⟩

theorem pcut_any (hn : n ≤ d.length) (hd : d.length ≤ maxAlloc) {pos : Nat} (hp : pos ≤ n) (t : BoxType) (ps : Nat) (ctx : Ctx) :
    PCut (BoxMap.std.unmarshalAny (d.take n) t ps ctx) (BoxMap.std.unmarshalAny d t ps ctx) pos := by
  have hl : (d.take n).length = n := by rw [List.length_take]; omega
  rcases hx : BoxMap.std.new t ctx with e | box
  · rw [Src.unmarshalAny_error hx, Src.unmarshalAny_error hx]
    exact .inl rfl
  · rw [Src.unmarshalAny_ok hx, Src.unmarshalAny_ok hx]
    refine PCut.bind ?_ fun _ _ _ => .inl rfl
    have hbd : box.bd ∈ Cat.allDefs ∧ typedFields box.bd.fields box.sv = true := by
      unfold BoxMap.new at hx
      cases hb : BoxMap.std.getBoxDef t ctx with
      | none => rw [hb] at hx; cases hx
      | some bd =>
        rw [hb] at hx
        injection hx with hx
        subst hx
        exact ⟨std_mem hb, zero_typedFields _⟩
    have hpost := unmarshalBox_post hbd.1 (d := d.take n) (by omega) (pos := pos) (by omega) ctx ps hbd.2
    unfold PCut
    cases hr : unmarshalBox box.bd (d.take n) ctx ps box.sv pos with
    | mk o q =>
    rw [hr] at hpost
    cases o with
    | err e => exact .inr (.inl ⟨e, rfl⟩)
    | hang => exact .inr (.inr rfl)
    | panic => exact hpost.elim
    | ok r =>
      left
      have hq : q ≤ (d.take n).length := hpost.2.2.1
      exact (box_sim hbd.1 (agree_take hn hd) ctx ps box.sv (fun _ => by omega) hr (by omega)).symm

theorem pcut_copy (k pos : Nat) : PCut (copyNP (d.take n) k) (copyNP d k) pos := by
  unfold PCut copyNP
  by_cases h0 : k = 0 ∨ 2 ^ 63 ≤ k
  · rw [if_pos h0, if_pos h0]; exact .inl rfl
  · rw [if_neg h0, if_neg h0]
    simp only
    by_cases h1 : (((d.take n).drop pos).take k).length < k
    · rw [if_pos h1]; exact .inr (.inl ⟨_, rfl⟩)
    · rw [if_neg h1]
      left
      have e : ((d.take n).drop pos).take k = (d.drop pos).take k := by
        rw [List.drop_take, List.take_take]
        congr 1
        simp only [List.length_take, List.length_drop] at h1
        omega
      rw [e] at h1 ⊢
      rw [if_neg h1]

/-- A header read in the part is a header of the whole, unless the box says that it goes on to the end. -/
theorem pcut_info (pos : Nat) : PCut (readBoxInfo (d.take n)) (readBoxInfo d) pos ∨
    ∃ bi p, readBoxInfo (d.take n) pos = (.ok bi, p) ∧ bi.extendToEOF = true := by
  rcases hs : readBoxInfo (d.take n) pos with ⟨o, p⟩
  by_cases he : ∃ bi, o = .ok bi ∧ bi.extendToEOF = true
  · obtain ⟨bi, rfl, hb⟩ := he
    exact .inr ⟨bi, p, rfl, hb⟩
  left
  have hno : ∀ bi q, readBoxInfo (d.take n) pos = (.ok bi, q) → bi.extendToEOF = false := by
    intro bi q h
    rw [hs] at h
    cases h
    cases hb : bi.extendToEOF with
    | false => rfl
    | true => exact absurd ⟨bi, rfl, hb⟩ he
  unfold readBoxInfo at hno ⊢
  rw [M.bind_ok (M.get_run _)] at hno
  refine PCut.bind (.inl rfl) fun a q e => ?_
  rw [M.get_run] at e
  cases e
  refine PCut.bind (pcut_copy _ _) fun data q e => ?_
  rw [M.bind_ok e] at hno
  simp only at hno ⊢
  by_cases h0 : beNat (data.take 4) = 0
  · rw [if_pos h0] at hno ⊢
    have hse : seekEndP (d.take n) q = (.ok (d.take n).length, (d.take n).length) := rfl
    right
    rw [M.bind_ok hse] at hno ⊢
    generalize hb : ({ offset := pos, size := sub64 (d.take n).length pos, headerSize := smallHeaderSize, type := ⟨data.getD 4 0, data.getD 5 0, data.getD 6 0, data.getD 7 0⟩, extendToEOF := true } : BoxInfo) = b at hno ⊢
    have hx : b.extendToEOF = true := by rw [← hb]
    cases hk : b.seekToPayload (d.take n).length with
    | mk o2 q2 =>
    rw [M.bind_run, hk] at hno
    rw [M.bind_run, hk]
    cases o2 with
    | ok z =>
      simp only at hno ⊢
      rw [show ((pure b : PM BoxInfo) >>= fun bi => if bi.size = 0 then M.fail Err.invalidSize else pure bi) =
        if b.size = 0 then M.fail Err.invalidSize else pure b from rfl] at hno ⊢
      by_cases h3 : b.size = 0
      · rw [if_pos h3]; exact .inl ⟨_, rfl⟩
      · rw [if_neg h3] at hno
        have := hno b q2 rfl
        rw [hx] at this
        cases this
    | err x => exact .inl ⟨x, rfl⟩
    | hang => exact .inr rfl
    | panic =>
      unfold BoxInfo.seekToPayload seekStartP at hk
      split at hk <;> cases hk
  · rw [if_neg h0, if_neg h0]
    by_cases h1 : beNat (data.take 4) = 1
    · rw [if_pos h1, if_pos h1]
      exact PCut.bind (pcut_copy _ _) fun _ _ _ => .inl rfl
    · rw [if_neg h1, if_neg h1]
      exact .inl rfl

theorem pcut_payload (hn : n ≤ d.length) (hd : d.length ≤ maxAlloc) {bi : BoxInfo} (hb : bi.offset + bi.headerSize ≤ n) (pos : Nat) :
    PCut (readPayloadP BoxMap.std (d.take n) bi) (readPayloadP BoxMap.std d bi) pos := by
  unfold readPayloadP
  refine PCut.bind (.inl rfl) fun a p e => ?_
  rw [seekToPayload_ok hd (by omega)] at e
  cases e
  exact pcut_any hn hd hb _ _ _

theorem pcut_ftyp (hn : n ≤ d.length) (hd : d.length ≤ maxAlloc) {bi : BoxInfo} (path : List BoxType) {pos : Nat} (hp : pos ≤ n) :
    PCut (checkFtyp BoxMap.std (d.take n) path bi) (checkFtyp BoxMap.std d path bi) pos := by
  unfold checkFtyp
  by_cases h : path.length = 0 ∧ bi.type = tFtyp
  · rw [if_pos h, if_pos h]
    exact PCut.bind (pcut_any hn hd hp _ _ _) fun _ _ _ => .inl rfl
  · rw [if_neg h, if_neg h]
    exact .inl rfl

theorem pcut_keys (hn : n ≤ d.length) (hd : d.length ≤ maxAlloc) {bi : BoxInfo} {pos : Nat} (hp : pos ≤ n) :
    PCut (checkKeys BoxMap.std (d.take n) bi) (checkKeys BoxMap.std d bi) pos := by
  unfold checkKeys
  by_cases h : bi.type = tKeys
  · rw [if_pos h, if_pos h]
    exact PCut.bind (pcut_any hn hd hp _ _ _) fun _ _ _ => .inl rfl
  · rw [if_neg h, if_neg h]
    exact .inl rfl

theorem pcut_expand (hn : n ≤ d.length) (hd : d.length ≤ maxAlloc) {bi : BoxInfo} (hb : bi.offset + bi.headerSize ≤ n) (co pos : Nat) :
    PCut (expandStart BoxMap.std (d.take n) bi co) (expandStart BoxMap.std d bi co) pos := by
  unfold expandStart
  by_cases h : co = 0
  · rw [if_pos h, if_pos h]
    exact PCut.bind (pcut_payload hn hd hb _) fun _ _ _ => .inl rfl
  · rw [if_neg h, if_neg h]
    exact .inl rfl

/-! ## The traversal -/

/-- A box has been visited that says that it goes on to the end of the file. -/
def OpenLog (l : List (Ev V)) : Prop := ∃ x ∈ enters l, x.2.2.extendToEOF = true

/-- Nothing is removed from the record. -/
def LogGrows (m : TM S V α) : Prop := ∀ st, ∃ L, (m st).2.log = st.log ++ L

/-- On the part and on the whole: an open box has been visited, or both are the same, or that on the part has come to a stop, and the handler has been called for
the first few boxes. -/
structure TCut (ms ml : TM S V α) : Prop where
  rel : ∀ st, OpenLog (ms st).2.log ∨ ms st = ml st ∨ (Stops (ms st).1 ∧ enters (ms st).2.log <+: enters (ml st).2.log)
  growS : LogGrows ms
  growL : LogGrows ml

theorem OpenLog.mono {l : List (Ev V)} (h : OpenLog l) (m : List (Ev V)) : OpenLog (l ++ m) := by
  obtain ⟨x, hx, he⟩ := h
  exact ⟨x, by rw [enters_append]; exact List.mem_append.2 (.inl hx), he⟩

theorem grows_bind {m : TM S V α} {f : α → TM S V β} (h : LogGrows m) (hf : ∀ a, LogGrows (f a)) : LogGrows (m >>= f) := by
  intro st
  obtain ⟨L, hL⟩ := h st
  cases e : m st with
  | mk o st1 =>
  rw [e] at hL
  cases o with
  | ok a =>
    obtain ⟨L2, h2⟩ := hf a st1
    rw [M.bind_ok e, h2, hL]
    exact ⟨L ++ L2, by rw [List.append_assoc]⟩
  | err x => rw [M.bind_err e]; exact ⟨L, hL⟩
  | panic => rw [M.bind_panic e]; exact ⟨L, hL⟩
  | hang => rw [M.bind_hang e]; exact ⟨L, hL⟩

theorem grows_pure (a : α) : LogGrows (pure a : TM S V α) := fun _ => ⟨[], (List.append_nil _).symm⟩
theorem grows_fail (e : Err) : LogGrows (M.fail e : TM S V α) := fun _ => ⟨[], (List.append_nil _).symm⟩
theorem grows_hang : LogGrows (M.hang : TM S V α) := fun _ => ⟨[], (List.append_nil _).symm⟩
theorem grows_get : LogGrows (M.get : TM S V _) := fun _ => ⟨[], (List.append_nil _).symm⟩
theorem grows_emit (ev : Ev V) : LogGrows (emit ev : TM S V Unit) := fun _ => ⟨[ev], rfl⟩
theorem grows_liftP (m : PM α) : LogGrows (liftP m : TM S V α) := fun st => ⟨[], by rw [liftP_run]; exact (List.append_nil _).symm⟩
theorem grows_modify {f : TSt S V → TSt S V} (h : ∀ st, (f st).log = st.log) : LogGrows (M.modify f) := fun st =>
  ⟨[], by rw [M.modify_run, List.append_nil]; exact h st⟩
theorem grows_try {m : TM S V α} (h : LogGrows m) : LogGrows (tryM m) := by
  intro st
  obtain ⟨L, hL⟩ := h st
  refine ⟨L, ?_⟩
  unfold tryM
  cases e : m st with
  | mk o st1 => rw [e] at hL; cases o <;> exact hL
theorem grows_ofExcept (r : Except Err α) : LogGrows (ofExcept r : TM S V α) := by
  cases r
  · exact grows_fail _
  · exact grows_pure _

theorem TCut.same {m : TM S V α} (h : LogGrows m) : TCut m m := ⟨fun _ => .inr (.inl rfl), h, h⟩

theorem TCut.bindK {ms ml : TM S V α} {fs fl : α → TM S V β} (h : TCut ms ml) (hgs : ∀ a, LogGrows (fs a)) (hgl : ∀ a, LogGrows (fl a))
    (hf : ∀ a, (∃ st st', ms st = (.ok a, st')) → TCut (fs a) (fl a)) : TCut (ms >>= fs) (ml >>= fl) := by
  refine ⟨fun st => ?_, grows_bind h.growS hgs, grows_bind h.growL hgl⟩
  rcases h.rel st with h1 | h1 | ⟨h1, h2⟩
  · left
    cases e : ms st with
    | mk o st1 =>
    rw [e] at h1
    cases o with
    | ok a =>
      obtain ⟨L, hL⟩ := hgs a st1
      rw [M.bind_ok e, hL]
      exact OpenLog.mono h1 L
    | err x => rw [M.bind_err e]; exact h1
    | panic => rw [M.bind_panic e]; exact h1
    | hang => rw [M.bind_hang e]; exact h1
  · cases e : ms st with
    | mk o st1 =>
    have e' := h1.symm.trans e
    cases o with
    | ok a => rw [M.bind_ok e, M.bind_ok e']; exact (hf a ⟨st, st1, e⟩).rel st1
    | err x => right; left; rw [M.bind_err e, M.bind_err e']
    | panic => right; left; rw [M.bind_panic e, M.bind_panic e']
    | hang => right; left; rw [M.bind_hang e, M.bind_hang e']
  · right; right
    have hg : ∃ L, ((ml >>= fl) st).2.log = (ml st).2.log ++ L := by
      cases e : ml st with
      | mk o st1 =>
      cases o with
      | ok a =>
        obtain ⟨L, hL⟩ := hgl a st1
        rw [M.bind_ok e]
        exact ⟨L, hL⟩
      | err x => rw [M.bind_err e]; exact ⟨[], (List.append_nil _).symm⟩
      | panic => rw [M.bind_panic e]; exact ⟨[], (List.append_nil _).symm⟩
      | hang => rw [M.bind_hang e]; exact ⟨[], (List.append_nil _).symm⟩
    obtain ⟨L, hL⟩ := hg
    rw [hL, enters_append]
    have h3 : enters (ms st).2.log <+: enters (ml st).2.log ++ enters L := h2.trans (List.prefix_append _ _)
    cases e : ms st with
    | mk o st1 =>
    rw [e] at h1 h3
    rcases h1 with ⟨x, rfl⟩ | rfl
    · rw [M.bind_err e]; exact ⟨.inl ⟨x, rfl⟩, h3⟩
    · rw [M.bind_hang e]; exact ⟨.inr rfl, h3⟩

theorem TCut.bind {ms ml : TM S V α} {fs fl : α → TM S V β} (h : TCut ms ml) (hf : ∀ a, TCut (fs a) (fl a)) : TCut (ms >>= fs) (ml >>= fl) :=
  h.bindK (fun a => (hf a).growS) (fun a => (hf a).growL) fun a _ => hf a

/-- an error as a value -/
def caught : Out α → Out (Except Err α)
  | .ok a => .ok (.ok a)
  | .err e => .ok (.error e)
  | .panic => .panic
  | .hang => .hang

theorem try_run {σ : Type} {m : M σ α} {st st1 : σ} {o : Out α} (e : m st = (o, st1)) : tryM m st = (caught o, st1) := by
  unfold tryM
  rw [e]
  cases o <;> rfl

/-- an error that is looked at, and passed on -/
theorem TCut.try {ms ml : TM S V α} {fs fl : Except Err α → TM S V β} (h : TCut ms ml) (hok : ∀ r, TCut (fs r) (fl r))
    (herr : ∀ e st, Stops (fs (.error e) st).1 ∧ enters (fs (.error e) st).2.log = enters st.log) : TCut (tryM ms >>= fs) (tryM ml >>= fl) := by
  refine ⟨fun st => ?_, grows_bind (grows_try h.growS) fun a => (hok a).growS, grows_bind (grows_try h.growL) fun a => (hok a).growL⟩
  have hg : ∃ L, ((tryM ml >>= fl) st).2.log = (ml st).2.log ++ L := by
    cases e : ml st with
    | mk o st1 =>
    have et := try_run e
    cases o with
    | ok a => rw [M.bind_ok et]; exact (hok _).growL st1
    | err x => rw [M.bind_ok et]; exact (hok _).growL st1
    | panic => rw [M.bind_panic et]; exact ⟨[], (List.append_nil _).symm⟩
    | hang => rw [M.bind_hang et]; exact ⟨[], (List.append_nil _).symm⟩
  cases e : ms st with
  | mk o st1 =>
  have et := try_run e
  rcases h.rel st with h1 | h1 | ⟨h1, h2⟩
  · left
    rw [e] at h1
    cases o with
    | ok a => obtain ⟨L, hL⟩ := (hok (.ok a)).growS st1; rw [M.bind_ok et, hL]; exact OpenLog.mono h1 L
    | err x => obtain ⟨L, hL⟩ := (hok (.error x)).growS st1; rw [M.bind_ok et, hL]; exact OpenLog.mono h1 L
    | panic => rw [M.bind_panic et]; exact h1
    | hang => rw [M.bind_hang et]; exact h1
  · have et' : tryM ml st = _ := (show tryM ml st = tryM ms st by unfold tryM; rw [h1]).trans et
    cases o with
    | ok a => rw [M.bind_ok et, M.bind_ok et']; exact (hok _).rel st1
    | err x => rw [M.bind_ok et, M.bind_ok et']; exact (hok _).rel st1
    | panic => right; left; rw [M.bind_panic et, M.bind_panic et']
    | hang => right; left; rw [M.bind_hang et, M.bind_hang et']
  · right; right
    obtain ⟨L, hL⟩ := hg
    rw [e] at h1 h2
    have h3 : enters st1.log <+: enters ((tryM ml >>= fl) st).2.log := by
      rw [hL, enters_append]
      exact h2.trans (List.prefix_append _ _)
    rcases h1 with ⟨x, h1⟩ | h1
    · simp only at h1
      subst h1
      rw [M.bind_ok et]
      obtain ⟨h4, h5⟩ := herr x st1
      exact ⟨h4, by rw [h5]; exact h3⟩
    · simp only at h1
      subst h1
      rw [M.bind_hang et]
      exact ⟨.inr rfl, h3⟩

/-- use of the stream -/
theorem TCut.liftP {ms ml : PM α} (h : ∀ pos, PCut ms ml pos) : TCut (S := S) (V := V) (liftP ms) (liftP ml) := by
  refine ⟨fun st => ?_, grows_liftP _, grows_liftP _⟩
  rw [liftP_run, liftP_run]
  rcases h st.pos with h | h
  · right; left; rw [h]
  · right; right; exact ⟨h, List.prefix_refl _⟩

theorem grows_runProg (m : BoxMap) (path : List BoxType) (bi : BoxInfo) {ch : Nat → P → TM S V (List V)} (hc : ∀ co p, LogGrows (ch co p)) :
    ∀ (g : Prog S P V) (co : Nat), LogGrows (runProg m d path bi ch g co) := by
  intro g
  induction g with
  | ret v => intro co; exact grows_pure v
  | err e => intro co; exact grows_fail e
  | get k ih => intro co; exact grows_bind grows_get fun s => ih s.user co
  | set s k ih => intro co; exact grows_bind (grows_modify fun _ => rfl) fun _ => ih co
  | stream mv k ih => intro co; exact grows_bind grows_get fun s => grows_bind (grows_modify fun _ => rfl) fun _ => ih s.pos co
  | readPayload k ih =>
    intro co
    rw [runProg]
    refine grows_bind (grows_try (grows_liftP _)) fun r => ?_
    cases r with
    | ok a => exact ih (.ok a) _
    | error e => exact ih (.error e) _
  | readData w k ih =>
    intro co
    exact grows_bind (grows_liftP _) fun r => ih r.1 r.2 co
  | expand p k ih =>
    intro co
    rw [runProg]
    refine grows_bind (grows_try (grows_liftP _)) fun r => ?_
    cases r with
    | error e => exact ih (.error e) _
    | ok co' => exact grows_bind (grows_emit _) fun _ => grows_bind (grows_try (hc _ _)) fun r => grows_bind (grows_emit _) fun _ => ih r _

theorem readData_cut (hn : n ≤ d.length) (hd : d.length ≤ maxAlloc) {bi : BoxInfo} (hb : bi.offset + bi.headerSize ≤ n) (w : Dest) (hw : w.cap = none)
    (pos : Nat) : readDataP (d.take n) bi w pos = readDataP d bi w pos ∨ ∃ e b p, readDataP (d.take n) bi w pos = (.ok (.error e, b), p) := by
  unfold readDataP
  rw [seekToPayload_ok hd (by omega), hw]
  simp only
  have hc := pcut_copy (d := d) (n := n) (sub64 bi.size bi.headerSize) (bi.offset + bi.headerSize)
  unfold PCut at hc
  cases e : copyNP (d.take n) (sub64 bi.size bi.headerSize) (bi.offset + bi.headerSize) with
  | mk o p =>
  rw [e] at hc
  rcases hc with hc | ⟨x, hc⟩ | hc
  · rw [← hc]
    cases o with
    | ok b => exact .inl rfl
    | err x => exact .inr ⟨x, _, _, rfl⟩
    | panic => exact .inl rfl
    | hang => exact .inl rfl
  · simp only at hc
    subst hc
    exact .inr ⟨x, _, _, rfl⟩
  · simp only at hc
    subst hc
    unfold copyNP at e
    split at e
    · cases e
    · simp only at e
      split at e <;> cases e

theorem runProg_cut (hn : n ≤ d.length) (hd : d.length ≤ maxAlloc) {bi : BoxInfo} (hb : bi.offset + bi.headerSize ≤ n) (path : List BoxType)
    {cs cl : Nat → P → TM S V (List V)} (hc : ∀ co p, TCut (cs co p) (cl co p)) :
    ∀ (g : Prog S P V), PassesErrors g → ∀ co, TCut (runProg BoxMap.std (d.take n) path bi cs g co) (runProg BoxMap.std d path bi cl g co) := by
  intro g
  induction g with
  | ret v => intro _ co; exact .same (grows_pure v)
  | err e => intro _ co; exact .same (grows_fail e)
  | get k ih => intro h co; exact .bind (.same grows_get) fun s => ih s.user (h _) co
  | set s k ih => intro h co; exact .bind (.same (grows_modify fun _ => rfl)) fun _ => ih h co
  | stream mv k ih => intro h co; exact .bind (.same grows_get) fun s => .bind (.same (grows_modify fun _ => rfl)) fun _ => ih s.pos (h _) co
  | readPayload k ih =>
    intro h co
    rw [runProg, runProg]
    refine TCut.try (.liftP (pcut_payload hn hd hb)) (fun r => ?_) fun e st => ?_
    · cases r with
      | ok a => exact ih (.ok a) (h.2 a) _
      | error e => simp only; rw [h.1 e]; exact .same (grows_fail e)
    · simp only
      rw [h.1 e]
      exact ⟨.inl ⟨e, rfl⟩, rfl⟩
  | readData w k ih =>
    intro h co
    obtain ⟨hw, he, hk⟩ := h
    refine ⟨fun st => ?_, ?_, ?_⟩
    · rcases readData_cut hn hd hb w hw st.pos with e | ⟨x, b, p, e⟩
      · cases e1 : readDataP (d.take n) bi w st.pos with
        | mk o p =>
        have l1 : (liftP (readDataP (d.take n) bi w) : TM S V _) st = (o, { st with pos := p }) := by rw [liftP_run, e1]
        have l2 : (liftP (readDataP d bi w) : TM S V _) st = (o, { st with pos := p }) := by rw [liftP_run, ← e, e1]
        cases o with
        | ok a =>
          obtain ⟨r, b⟩ := a
          rw [runProg, runProg, M.bind_ok l1, M.bind_ok l2]
          cases r with
          | ok z => exact (ih (.ok z) b (hk z b) co).rel _
          | error x => simp only; rw [he x b]; exact .inr (.inl rfl)
        | err x => right; left; rw [runProg, runProg, M.bind_err l1, M.bind_err l2]
        | panic => right; left; rw [runProg, runProg, M.bind_panic l1, M.bind_panic l2]
        | hang => right; left; rw [runProg, runProg, M.bind_hang l1, M.bind_hang l2]
      · right; right
        have l1 : (liftP (readDataP (d.take n) bi w) : TM S V _) st = (.ok (.error x, b), { st with pos := p }) := by rw [liftP_run, e]
        have e2 : runProg BoxMap.std (d.take n) path bi cs (.readData w k) co st = (.err x, { st with pos := p }) := by
          rw [runProg, M.bind_ok l1]
          simp only
          rw [he x b]
          rfl
        rw [e2]
        obtain ⟨L, hL⟩ := grows_runProg (d := d) BoxMap.std path bi (fun co p => (hc co p).growL) (.readData w k) co st
        refine ⟨.inl ⟨x, rfl⟩, ?_⟩
        rw [hL, enters_append]
        exact List.prefix_append _ _
    · exact grows_runProg _ _ _ (fun co p => (hc co p).growS) _ _
    · exact grows_runProg _ _ _ (fun co p => (hc co p).growL) _ _
  | expand p k ih =>
    intro h co
    rw [runProg, runProg]
    refine TCut.try (.liftP (pcut_expand hn hd hb co)) (fun r => ?_) fun e st => ?_
    · cases r with
      | error e => simp only; rw [h.1 e]; exact .same (grows_fail e)
      | ok co' =>
        refine .bind (.same (grows_emit _)) fun _ => TCut.try (hc _ _) (fun r => ?_) fun e st => ?_
        · refine .bind (.same (grows_emit _)) fun _ => ?_
          cases r with
          | error e => rw [h.1 e]; exact .same (grows_fail e)
          | ok a => exact ih (.ok a) (h.2 a) _
        · rw [h.1 e]
          exact ⟨.inl ⟨e, rfl⟩, by simp [emit, M.bind_run, M.modify_run, runProg, M.fail, enters_append, enters]⟩
    · simp only
      rw [h.1 e]
      exact ⟨.inl ⟨e, rfl⟩, rfl⟩

theorem grows_fromInternal {h : Handler S P V} {rec : BoxInfo → Nat → List BoxType → Ctx → P → TM S V (List V)}
    (hr : ∀ bi t path ctx p, LogGrows (rec bi t path ctx p)) (parent : Option BoxInfo) (bi : BoxInfo) (path : List BoxType) (p : P) :
    LogGrows (fromInternal BoxMap.std d h rec parent bi path p) :=
  grows_bind (grows_liftP _) fun _ => grows_bind (grows_liftP _) fun _ => grows_bind (grows_liftP _) fun _ => grows_bind (grows_emit _) fun _ =>
    grows_bind (grows_try (grows_runProg _ _ _ (fun _ _ => hr _ _ _ _ _) _ _)) fun _ => grows_bind (grows_emit _) fun _ =>
    grows_bind (grows_ofExcept _) fun _ => grows_bind (grows_liftP _) fun _ => grows_pure _

theorem grows_readStructure (h : Handler S P V) : ∀ (f : Nat) (parent : Option BoxInfo) (total : Nat) (isRoot : Bool) (path : List BoxType) (ctx : Ctx) (p : P),
    LogGrows (readStructure BoxMap.std d h f parent total isRoot path ctx p) := by
  intro f
  induction f with
  | zero => intro _ _ _ _ _ _; exact grows_hang
  | succ f ih =>
    intro parent total isRoot path ctx p
    rw [readStructure]
    by_cases h1 : isRoot = true ∨ smallHeaderSize ≤ total
    · rw [if_pos h1]
      refine grows_bind (grows_try (grows_liftP _)) fun r => ?_
      cases r with
      | error e =>
        simp only
        split
        · exact grows_pure _
        · exact grows_fail _
      | ok bi =>
        simp only
        split
        · exact grows_fail _
        · exact grows_bind (grows_fromInternal (fun _ _ _ _ _ => ih _ _ _ _ _ _) _ _ _ _) fun _ => grows_bind (ih _ _ _ _ _ _) fun _ => grows_pure _
    · rw [if_neg h1]
      split
      · exact grows_fail _
      · exact grows_pure _

theorem checkFtyp_same {m : BoxMap} {path : List BoxType} {bi bi' : BoxInfo} {pos pos' : Nat} (h : checkFtyp m d path bi pos = (.ok bi', pos')) :
    bi'.extendToEOF = bi.extendToEOF ∧ bi'.offset = bi.offset ∧ bi'.headerSize = bi.headerSize := by
  unfold checkFtyp at h
  split at h
  · obtain ⟨⟨box, k⟩, p1, -, h⟩ := bind_ok_inv h
    simp only at h
    obtain ⟨_, p2, -, h⟩ := bind_ok_inv h
    cases h
    split <;> exact ⟨rfl, rfl, rfl⟩
  · cases h; exact ⟨rfl, rfl, rfl⟩

theorem checkKeys_same {m : BoxMap} {bi bi' : BoxInfo} {pos pos' : Nat} (h : checkKeys m d bi pos = (.ok bi', pos')) :
    bi'.extendToEOF = bi.extendToEOF ∧ bi'.offset = bi.offset ∧ bi'.headerSize = bi.headerSize := by
  unfold checkKeys at h
  split at h
  · obtain ⟨⟨box, k⟩, p1, -, h⟩ := bind_ok_inv h
    simp only at h
    obtain ⟨_, p2, -, h⟩ := bind_ok_inv h
    cases h
    exact ⟨rfl, rfl, rfl⟩
  · cases h; exact ⟨rfl, rfl, rfl⟩

/-- What is done before the handler is called. -/
def checks (d : Bytes) (path : List BoxType) (bi : BoxInfo) : PM BoxInfo := do
  let _ ← bi.seekToPayload
  let bi ← checkFtyp BoxMap.std d path bi
  checkKeys BoxMap.std d bi

theorem liftP_bind_run (m : PM α) (f : α → PM β) : (liftP (m >>= f) : TM S V β) = liftP m >>= fun a => liftP (f a) := by
  funext st
  rw [M.bind_run]
  simp only [liftP_run]
  rw [M.bind_run]
  rcases m st.pos with ⟨o, p⟩
  cases o <;> rfl

/-- What is done from then on. -/
def handle (d : Bytes) (h : Handler S P V) (rec : BoxInfo → Nat → List BoxType → Ctx → P → TM S V (List V)) (parent : Option BoxInfo)
    (path : List BoxType) (p : P) (bi : BoxInfo) : TM S V (V × BoxInfo) := do
  let newPath := path ++ [bi.type]
  emit (.enter parent newPath bi)
  let r ← tryM (runProg BoxMap.std d newPath bi
    (fun co p => rec bi (sub64 (add64 bi.offset bi.size) co) newPath (childCtx bi) p)
    (h ⟨p, bi, newPath⟩) 0)
  emit (.leave parent newPath bi r)
  let v ← ofExcept r
  let _ ← liftP bi.seekToEnd
  pure (v, bi)

theorem fromInternal_eq (h : Handler S P V) (rec : BoxInfo → Nat → List BoxType → Ctx → P → TM S V (List V)) (parent : Option BoxInfo)
    (bi : BoxInfo) (path : List BoxType) (p : P) :
    fromInternal BoxMap.std d h rec parent bi path p = liftP (checks d path bi) >>= handle d h rec parent path p := by
  funext st
  unfold fromInternal checks
  rw [liftP_bind_run, M.bind_run, M.bind_run, M.bind_run]
  rcases (liftP bi.seekToPayload : TM S V _) st with ⟨o, st1⟩
  cases o with
  | ok a =>
    simp only
    rw [liftP_bind_run, M.bind_run, M.bind_run]
    rcases (liftP (checkFtyp BoxMap.std d path bi) : TM S V _) st1 with ⟨o, st2⟩
    cases o <;> rfl
  | err e => rfl
  | panic => rfl
  | hang => rfl

theorem checks_same {path : List BoxType} {bi bi' : BoxInfo} {pos pos' : Nat} (h : checks d path bi pos = (.ok bi', pos')) :
    bi'.extendToEOF = bi.extendToEOF ∧ bi'.offset = bi.offset ∧ bi'.headerSize = bi.headerSize := by
  unfold checks at h
  obtain ⟨_, p1, -, h⟩ := bind_ok_inv h
  obtain ⟨b1, p2, h1, h⟩ := bind_ok_inv h
  obtain ⟨a1, a2, a3⟩ := checkFtyp_same h1
  obtain ⟨b1, b2, b3⟩ := checkKeys_same h
  exact ⟨b1.trans a1, b2.trans a2, b3.trans a3⟩

theorem checkFtyp_at {m : BoxMap} {path : List BoxType} {bi bi' : BoxInfo} {pos pos' : Nat} (hd : d.length ≤ maxAlloc)
    (hb : bi.offset + bi.headerSize ≤ d.length) (h : checkFtyp m d path bi pos = (.ok bi', pos')) : pos' = pos ∨ pos' = bi.offset + bi.headerSize := by
  unfold checkFtyp at h
  split at h
  · obtain ⟨⟨box, k⟩, p1, -, h⟩ := bind_ok_inv h
    simp only at h
    obtain ⟨_, p2, h2, h⟩ := bind_ok_inv h
    cases h
    right
    split at h2
    · have h2 : bi.seekToPayload p1 = _ := h2
      rw [seekToPayload_ok hd hb] at h2; cases h2; rfl
    · rw [seekToPayload_ok hd hb] at h2; cases h2; rfl
  · cases h; exact .inl rfl

theorem pcut_checks (hn : n ≤ d.length) (hd : d.length ≤ maxAlloc) {bi : BoxInfo} (hb : bi.offset + bi.headerSize ≤ n) (path : List BoxType) (pos : Nat) :
    PCut (checks (d.take n) path bi) (checks d path bi) pos := by
  have hl : (d.take n).length = n := by rw [List.length_take]; omega
  unfold checks
  refine PCut.bind (.inl rfl) fun a p e => ?_
  rw [seekToPayload_ok hd (by omega)] at e
  cases e
  refine PCut.bind (pcut_ftyp hn hd path hb) fun bi' p e => ?_
  have := checkFtyp_at (by omega) (by omega) e
  exact pcut_keys hn hd (by omega)

theorem grows_handle {h : Handler S P V} {rec : BoxInfo → Nat → List BoxType → Ctx → P → TM S V (List V)}
    (hr : ∀ bi t path ctx p, LogGrows (rec bi t path ctx p)) (parent : Option BoxInfo) (path : List BoxType) (p : P) (bi : BoxInfo) :
    LogGrows (handle d h rec parent path p bi) :=
  grows_bind (grows_emit _) fun _ =>
    grows_bind (grows_try (grows_runProg _ _ _ (fun _ _ => hr _ _ _ _ _) _ _)) fun _ => grows_bind (grows_emit _) fun _ =>
    grows_bind (grows_ofExcept _) fun _ => grows_bind (grows_liftP _) fun _ => grows_pure _

theorem fromInternal_cut (hn : n ≤ d.length) (hd : d.length ≤ maxAlloc) {h : Handler S P V} (hh : ∀ x, PassesErrors (h x))
    {rs rl : BoxInfo → Nat → List BoxType → Ctx → P → TM S V (List V)} (hr : ∀ bi t path ctx p, TCut (rs bi t path ctx p) (rl bi t path ctx p))
    (parent : Option BoxInfo) {bi : BoxInfo} (hb : bi.offset + bi.headerSize ≤ n) (path : List BoxType) (p : P) :
    TCut (fromInternal BoxMap.std (d.take n) h rs parent bi path p) (fromInternal BoxMap.std d h rl parent bi path p) := by
  rw [fromInternal_eq, fromInternal_eq]
  refine TCut.bindK (.liftP (pcut_checks hn hd hb path)) (fun b => grows_handle (fun _ _ _ _ _ => (hr _ _ _ _ _).growS) _ _ _ _)
    (fun b => grows_handle (fun _ _ _ _ _ => (hr _ _ _ _ _).growL) _ _ _ _) fun b hk => ?_
  have hb' : b.offset + b.headerSize ≤ n := by
    obtain ⟨st, st', hk⟩ := hk
    rw [liftP_run] at hk
    injection hk with h1 h2
    have := checks_same (show checks (d.take n) path bi st.pos = (.ok b, (checks (d.take n) path bi st.pos).2) by rw [← h1])
    omega
  refine .bind (.same (grows_emit _)) fun _ => TCut.try (runProg_cut hn hd hb' _ (fun _ _ => hr _ _ _ _ _) _ (hh _) 0) (fun r => ?_) fun e st => ?_
  · exact .same (grows_bind (grows_emit _) fun _ => grows_bind (grows_ofExcept _) fun _ => grows_bind (grows_liftP _) fun _ => grows_pure _)
  · exact ⟨.inl ⟨e, rfl⟩, by simp [emit, M.bind_run, M.modify_run, ofExcept, M.fail, enters_append, enters]⟩

/-- a box that goes on to the end of the file -/
theorem fromInternal_open (hn : n ≤ d.length) (hd : d.length ≤ maxAlloc) {h : Handler S P V}
    {rs : BoxInfo → Nat → List BoxType → Ctx → P → TM S V (List V)} (hr : ∀ bi t path ctx p, LogGrows (rs bi t path ctx p))
    (parent : Option BoxInfo) {bi : BoxInfo} (hb : HeaderAt (d.take n) bi) (he : bi.extendToEOF = true) (path : List BoxType) (p : P) (st : TSt S V) :
    OpenLog (fromInternal BoxMap.std (d.take n) h rs parent bi path p st).2.log ∨
    (Stops (fromInternal BoxMap.std (d.take n) h rs parent bi path p st).1 ∧ (fromInternal BoxMap.std (d.take n) h rs parent bi path p st).2.log = st.log) := by
  rw [fromInternal_eq]
  have hl := liftP_run (S := S) (V := V) (checks (d.take n) path bi) st
  cases e : checks (d.take n) path bi st.pos with
  | mk o q =>
  rw [e] at hl
  simp only at hl
  cases o with
  | ok b =>
    left
    rw [M.bind_ok hl]
    unfold handle
    have e2 : (emit (.enter parent (path ++ [b.type]) b) : TM S V Unit) { st with pos := q } =
      (.ok (), { st with pos := q, log := st.log ++ [.enter parent (path ++ [b.type]) b] }) := rfl
    rw [M.bind_ok e2]
    obtain ⟨L, hL⟩ := grows_bind (S := S) (V := V) (grows_try (grows_runProg (d := d.take n) BoxMap.std (path ++ [b.type]) b
      (ch := fun co p => rs b (sub64 (add64 b.offset b.size) co) (path ++ [b.type]) (childCtx b) p) (fun _ _ => hr _ _ _ _ _) (h ⟨p, b, path ++ [b.type]⟩) 0))
      (fun r => grows_bind (grows_emit (.leave parent (path ++ [b.type]) b r)) fun _ => grows_bind (grows_ofExcept r) fun v =>
        grows_bind (grows_liftP b.seekToEnd) fun _ => grows_pure (v, b)) { st with pos := q, log := st.log ++ [.enter parent (path ++ [b.type]) b] }
    rw [hL]
    refine OpenLog.mono ⟨(parent, path ++ [b.type], b), ?_, (checks_same e).1.trans he⟩ L
    · rw [enters_append]; exact List.mem_append.2 (.inr (by simp [enters]))
  | err x => right; rw [M.bind_err hl]; exact ⟨.inl ⟨x, rfl⟩, rfl⟩
  | hang => right; rw [M.bind_hang hl]; exact ⟨.inr rfl, rfl⟩
  | panic =>
    exfalso
    have hl : (d.take n).length ≤ maxAlloc := by rw [List.length_take]; omega
    unfold checks at e
    rw [M.bind_ok (seekToPayload_ok hl hb.inside st.pos)] at e
    rcases checks_post hl hb path with ⟨b1, b2, e1, e2, -⟩ | ⟨x, p, e1, -⟩ | ⟨b1, x, p, e1, e2, -⟩
    · rw [M.bind_ok e1, e2] at e
      cases e
    · rw [M.bind_err e1] at e
      cases e
    · rw [M.bind_ok e1, e2] at e
      cases e

/-- what follows the header of a box -/
def afterInfo (d : Bytes) (h : Handler S P V) (f : Nat) (parent : Option BoxInfo) (total : Nat) (isRoot : Bool) (path : List BoxType) (ctx : Ctx) (p : P)
    (bi : BoxInfo) : TM S V (List V) :=
  if ¬ isRoot = true ∧ total < bi.size then M.fail .tooLargeBoxSize
  else fromInternal BoxMap.std d h (fun par total path ctx p => readStructure BoxMap.std d h f (some par) total false path ctx p)
      parent { bi with ctx := ctx } path p >>= fun r =>
    readStructure BoxMap.std d h f parent (sub64 total r.2.size) isRoot path (nextCtx ctx r.2) p >>= fun vs => pure (r.1 :: vs)

/-- what follows the attempt to read a header -/
def afterHeader (d : Bytes) (h : Handler S P V) (f : Nat) (parent : Option BoxInfo) (total : Nat) (isRoot : Bool) (path : List BoxType) (ctx : Ctx) (p : P) :
    Except Err BoxInfo → TM S V (List V)
  | .error e => if isRoot = true ∧ e = .eof then pure [] else M.fail e
  | .ok bi => afterInfo d h f parent total isRoot path ctx p bi

theorem readStructure_succ (d : Bytes) (h : Handler S P V) (f : Nat) (parent : Option BoxInfo) (total : Nat) (isRoot : Bool) (path : List BoxType) (ctx : Ctx) (p : P)
    (h1 : isRoot = true ∨ smallHeaderSize ≤ total) :
    readStructure BoxMap.std d h (f + 1) parent total isRoot path ctx p =
      tryM (liftP (readBoxInfo d)) >>= afterHeader d h f parent total isRoot path ctx p := by
  rw [readStructure, if_pos h1]
  rfl

theorem grows_afterInfo (d : Bytes) (h : Handler S P V) (f : Nat) (parent : Option BoxInfo) (total : Nat) (isRoot : Bool) (path : List BoxType) (ctx : Ctx) (p : P)
    (bi : BoxInfo) : LogGrows (afterInfo d h f parent total isRoot path ctx p bi) := by
  unfold afterInfo
  split
  · exact grows_fail _
  · exact grows_bind (grows_fromInternal (fun _ _ _ _ _ => grows_readStructure _ _ _ _ _ _ _ _) _ _ _ _) fun _ =>
      grows_bind (grows_readStructure _ _ _ _ _ _ _ _) fun _ => grows_pure _

/-- a box that goes on to the end of the part -/
theorem afterInfo_open (hn : n ≤ d.length) (hd : d.length ≤ maxAlloc) {h : Handler S P V} {f : Nat} {parent : Option BoxInfo} {total : Nat} {isRoot : Bool}
    {path : List BoxType} {ctx : Ctx} {p : P} {bi : BoxInfo} (hb : HeaderAt (d.take n) { bi with ctx := ctx }) (he : bi.extendToEOF = true) (st : TSt S V) :
    OpenLog (afterInfo (d.take n) h f parent total isRoot path ctx p bi st).2.log ∨
    (Stops (afterInfo (d.take n) h f parent total isRoot path ctx p bi st).1 ∧ (afterInfo (d.take n) h f parent total isRoot path ctx p bi st).2.log = st.log) := by
  unfold afterInfo
  by_cases h2 : ¬ isRoot = true ∧ total < bi.size
  · rw [if_pos h2]
    exact .inr ⟨.inl ⟨_, rfl⟩, rfl⟩
  · rw [if_neg h2]
    have ho := fromInternal_open hn hd (h := h) (rs := fun par total path ctx p => readStructure BoxMap.std (d.take n) h f (some par) total false path ctx p)
      (fun _ _ _ _ _ => grows_readStructure _ _ _ _ _ _ _ _) parent hb he path p st
    cases e : fromInternal BoxMap.std (d.take n) h (fun par total path ctx p => readStructure BoxMap.std (d.take n) h f (some par) total false path ctx p)
      parent { bi with ctx := ctx } path p st with
    | mk o st1 =>
    rw [e] at ho
    cases o with
    | ok a =>
      rcases ho with ho | ⟨⟨x, hx⟩ | hx, -⟩
      · left
        rw [M.bind_ok e]
        obtain ⟨L, hL⟩ := grows_bind (grows_readStructure (d := d.take n) h f parent (sub64 total a.2.size) isRoot path (nextCtx ctx a.2) p)
          (fun vs => grows_pure (a.1 :: vs)) st1
        rw [hL]
        exact ho.mono L
      · cases hx
      · cases hx
    | err x => rw [M.bind_err e]; exact ho.imp id fun h => ⟨.inl ⟨x, rfl⟩, h.2⟩
    | hang => rw [M.bind_hang e]; exact ho.imp id fun h => ⟨.inr rfl, h.2⟩
    | panic =>
      rcases ho with ho | ⟨⟨x, hx⟩ | hx, -⟩
      · rw [M.bind_panic e]; exact .inl ho
      · cases hx
      · cases hx

theorem prefix_grown {ml : TM S V α} (h : LogGrows ml) {st : TSt S V} {l : List (Ev V)} (hl : l = st.log) : enters l <+: enters (ml st).2.log := by
  obtain ⟨L, hL⟩ := h st
  rw [hL, hl, enters_append]
  exact List.prefix_append _ _

/-- one more box, in the part and in the whole -/
theorem header_cut (hn : n ≤ d.length) (hd : d.length ≤ maxAlloc) {h : Handler S P V} {f : Nat} {parent : Option BoxInfo} {total : Nat} {isRoot : Bool}
    {path : List BoxType} {ctx : Ctx} {p : P} (h1 : isRoot = true ∨ smallHeaderSize ≤ total) (st : TSt S V)
    {ms ml : TM S V (List V)} (hms : ms = readStructure BoxMap.std (d.take n) h (f + 1) parent total isRoot path ctx p)
    (hml : ml = readStructure BoxMap.std d h (f + 1) parent total isRoot path ctx p) :
    (∃ bi st1, bi.offset + bi.headerSize ≤ n ∧ ms st = afterInfo (d.take n) h f parent total isRoot path ctx p bi st1 ∧
      ml st = afterInfo d h f parent total isRoot path ctx p bi st1) ∨
    OpenLog (ms st).2.log ∨ ms st = ml st ∨
    ((Stops (ms st).1 ∨ (isRoot = true ∧ (ms st).1 = .ok [])) ∧ enters (ms st).2.log <+: enters (ml st).2.log) := by
  have hl : (d.take n).length ≤ maxAlloc := by rw [List.length_take]; omega
  have hl' : (d.take n).length = n := by rw [List.length_take]; omega
  have hg : LogGrows ml := by rw [hml]; exact grows_readStructure _ _ _ _ _ _ _ _
  have hb := readBoxInfo_header hl st.pos ctx
  have er : ∀ (d : Bytes) o q, readBoxInfo d st.pos = (o, q) → (tryM (liftP (readBoxInfo d)) : TM S V _) st = (caught o, { st with pos := q }) := by
    intro d o q e
    exact try_run (by rw [liftP_run, e])
  rw [readStructure_succ _ _ _ _ _ _ _ _ _ h1] at hms hml
  have herr : ∀ e q, readBoxInfo (d.take n) st.pos = (.err e, q) → (Stops (ms st).1 ∨ (isRoot = true ∧ (ms st).1 = .ok [])) ∧ (ms st).2.log = st.log := by
    intro e q he
    rw [hms, M.bind_ok (er _ _ _ he)]
    rw [show afterHeader (d.take n) h f parent total isRoot path ctx p (.error e) = if isRoot = true ∧ e = .eof then pure [] else M.fail e from rfl]
    by_cases h3 : isRoot = true ∧ e = .eof
    · rw [if_pos h3]; exact ⟨.inr ⟨h3.1, rfl⟩, rfl⟩
    · rw [if_neg h3]; exact ⟨.inl (.inl ⟨e, rfl⟩), rfl⟩
  rcases hb with ⟨bi, e, -, hb⟩ | ⟨x, q, e⟩
  · have hin := hb.inside
    rcases pcut_info (d := d) (n := n) st.pos with hp | ⟨bi', q', e', he⟩
    · rcases hp with hp | hp
      · left
        rw [e] at hp
        refine ⟨bi, { st with pos := st.pos + bi.headerSize }, by rw [← hl']; exact hin, ?_, ?_⟩
        · rw [hms, M.bind_ok (er _ _ _ e)]; rfl
        · rw [hml, M.bind_ok (er _ _ _ hp.symm)]; rfl
      · rw [e] at hp
        rcases hp with ⟨x, hp⟩ | hp <;> cases hp
    · rw [e] at e'
      cases e'
      right
      have ho := afterInfo_open hn hd (h := h) (f := f) (parent := parent) (total := total) (isRoot := isRoot) (path := path) (p := p) hb he { st with pos := st.pos + bi.headerSize }
      have ems : ms st = afterInfo (d.take n) h f parent total isRoot path ctx p bi { st with pos := st.pos + bi.headerSize } := by
        rw [hms, M.bind_ok (er _ _ _ e)]; rfl
      rw [← ems] at ho
      rcases ho with ho | ⟨ho, hlog⟩
      · exact .inl ho
      · exact .inr (.inr ⟨.inl ho, prefix_grown hg hlog⟩)
  · obtain ⟨ho, hlog⟩ := herr x q e
    exact .inr (.inr (.inr ⟨ho, prefix_grown hg hlog⟩))

/-- The children of a box, in the part and in the whole. -/
theorem readStructure_cut (hn : n ≤ d.length) (hd : d.length ≤ maxAlloc) {h : Handler S P V} (hh : ∀ x, PassesErrors (h x)) (f : Nat) :
    ∀ (parent : Option BoxInfo) (total : Nat) (path : List BoxType) (ctx : Ctx) (p : P),
      TCut (readStructure BoxMap.std (d.take n) h f parent total false path ctx p) (readStructure BoxMap.std d h f parent total false path ctx p) := by
  induction f with
  | zero => intro parent total path ctx p; exact .same grows_hang
  | succ f ih =>
    intro parent total path ctx p
    refine ⟨fun st => ?_, grows_readStructure _ _ _ _ _ _ _ _, grows_readStructure _ _ _ _ _ _ _ _⟩
    by_cases h1 : false = true ∨ smallHeaderSize ≤ total
    · rcases header_cut hn hd (h := h) (f := f) (parent := parent) (path := path) (ctx := ctx) (p := p) h1 st rfl rfl with ⟨bi, st1, hb, e1, e2⟩ | h2 | h2 | ⟨h2 | ⟨h2, -⟩, h3⟩
      · rw [e1, e2]
        unfold afterInfo
        by_cases h3 : ¬ false = true ∧ total < bi.size
        · rw [if_pos h3, if_pos h3]; exact .inr (.inl rfl)
        · rw [if_neg h3, if_neg h3]
          exact (TCut.bind (fromInternal_cut hn hd hh (fun _ _ _ _ _ => ih _ _ _ _ _) _ (bi := { bi with ctx := ctx }) hb _ _) fun r =>
            TCut.bind (ih _ _ _ _ _) fun vs => .same (grows_pure _)).rel st1
      · exact .inl h2
      · exact .inr (.inl h2)
      · exact .inr (.inr ⟨h2, h3⟩)
      · cases h2
    · right; left
      rw [readStructure, readStructure, if_neg h1, if_neg h1]

/-- a value put in front of the values -/
def consed (v : α) : Out (List α) → Out (List α)
  | .ok l => .ok (v :: l)
  | .err e => .err e
  | .panic => .panic
  | .hang => .hang

/-- The boxes at the root: the part may come to its end there without an error. -/
def RootCut (ms ml : TM S V (List V)) : Prop := ∀ st, OpenLog (ms st).2.log ∨ ms st = ml st ∨
  ((Stops (ms st).1 ∨ ∃ x, (ms st).1 = .ok x ∧ ∀ y, (ml st).1 = .ok y → x <+: y) ∧ enters (ms st).2.log <+: enters (ml st).2.log)

theorem root_cut (hn : n ≤ d.length) (hd : d.length ≤ maxAlloc) {h : Handler S P V} (hh : ∀ x, PassesErrors (h x)) (f : Nat) :
    ∀ (parent : Option BoxInfo) (total : Nat) (path : List BoxType) (ctx : Ctx) (p : P),
      RootCut (readStructure BoxMap.std (d.take n) h f parent total true path ctx p) (readStructure BoxMap.std d h f parent total true path ctx p) := by
  induction f with
  | zero => intro parent total path ctx p st; exact .inr (.inl rfl)
  | succ f ih =>
    intro parent total path ctx p st
    rcases header_cut hn hd (h := h) (f := f) (parent := parent) (total := total) (path := path) (ctx := ctx) (p := p) (.inl rfl) st rfl rfl with ⟨bi, st1, hb, e1, e2⟩ | h2 | h2 | ⟨h2 | ⟨-, h2⟩, h3⟩
    · rw [e1, e2]
      unfold afterInfo
      rw [if_neg (fun h => h.1 rfl), if_neg (fun h => h.1 rfl)]
      have hf := fromInternal_cut hn hd hh (rs := fun par total path ctx p => readStructure BoxMap.std (d.take n) h f (some par) total false path ctx p)
        (rl := fun par total path ctx p => readStructure BoxMap.std d h f (some par) total false path ctx p)
        (fun _ _ _ _ _ => readStructure_cut hn hd hh f _ _ _ _ _) parent (bi := { bi with ctx := ctx }) hb path p
      generalize fromInternal BoxMap.std (d.take n) h _ parent _ path p = ms at hf ⊢
      generalize fromInternal BoxMap.std d h _ parent _ path p = ml at hf ⊢
      have gs : ∀ (d : Bytes) (r : V × BoxInfo), LogGrows (readStructure BoxMap.std d h f parent (sub64 total r.2.size) true path (nextCtx ctx r.2) p >>= fun vs => pure (r.1 :: vs)) :=
        fun d r => grows_bind (grows_readStructure _ _ _ _ _ _ _ _) fun _ => grows_pure _
      by_cases hsame : ms st1 = ml st1
      · cases e : ms st1 with
        | mk o st2 =>
        have e' := hsame.symm.trans e
        cases o with
        | ok a =>
          rw [M.bind_ok e, M.bind_ok e']
          have hr := ih parent (sub64 total a.2.size) path (nextCtx ctx a.2) p st2
          generalize readStructure BoxMap.std (d.take n) h f parent _ true path _ p = rs at hr ⊢
          generalize readStructure BoxMap.std d h f parent _ true path _ p = rl at hr ⊢
          cases es : rs st2 with
          | mk os s3 =>
          cases el : rl st2 with
          | mk ol l3 =>
          rw [es, el] at hr
          have ems : (rs >>= fun vs => pure (a.1 :: vs)) st2 = (consed a.1 os, s3) := by
            rw [M.bind_run, es]; cases os <;> rfl
          have eml : (rl >>= fun vs => pure (a.1 :: vs)) st2 = (consed a.1 ol, l3) := by
            rw [M.bind_run, el]; cases ol <;> rfl
          rw [ems, eml]
          rcases hr with hr | hr | ⟨hr, hp⟩
          · exact .inl hr
          · cases hr; exact .inr (.inl rfl)
          · refine .inr (.inr ⟨?_, hp⟩)
            rcases hr with (⟨x, hr⟩ | hr) | ⟨x, hr, hy⟩
            · simp only at hr; subst hr; exact .inl (.inl ⟨x, rfl⟩)
            · simp only at hr; subst hr; exact .inl (.inr rfl)
            · simp only at hr; subst hr
              refine .inr ⟨_, rfl, fun y ey => ?_⟩
              cases ol with
              | ok z =>
                cases ey
                obtain ⟨t, rfl⟩ := hy z rfl
                exact ⟨t, rfl⟩
              | err x => cases ey
              | hang => cases ey
              | panic => cases ey
        | err x => rw [M.bind_err e, M.bind_err e']; exact .inr (.inl rfl)
        | panic => rw [M.bind_panic e, M.bind_panic e']; exact .inr (.inl rfl)
        | hang => rw [M.bind_hang e, M.bind_hang e']; exact .inr (.inl rfl)
      · rcases hf.rel st1 with h4 | h4 | ⟨h4, h5⟩
        · left
          cases e : ms st1 with
          | mk o st2 =>
          rw [e] at h4
          cases o with
          | ok a => obtain ⟨L, hL⟩ := gs (d.take n) a st2; rw [M.bind_ok e, hL]; exact h4.mono L
          | err x => rw [M.bind_err e]; exact h4
          | panic => rw [M.bind_panic e]; exact h4
          | hang => rw [M.bind_hang e]; exact h4
        · exact absurd h4 hsame
        · right; right
          have hgl : enters (ml st1).2.log <+: enters ((ml >>= fun r => readStructure BoxMap.std d h f parent (sub64 total r.2.size) true path (nextCtx ctx r.2) p >>=
              fun vs => pure (r.1 :: vs)) st1).2.log := by
            cases e : ml st1 with
            | mk o st2 =>
            cases o with
            | ok a => rw [M.bind_ok e]; exact prefix_grown (gs d a) rfl
            | err x => rw [M.bind_err e]; exact List.prefix_refl _
            | panic => rw [M.bind_panic e]; exact List.prefix_refl _
            | hang => rw [M.bind_hang e]; exact List.prefix_refl _
          cases e : ms st1 with
          | mk o st2 =>
          rw [e] at h4 h5
          rcases h4 with ⟨x, h4⟩ | h4
          · simp only at h4; subst h4; rw [M.bind_err e]; exact ⟨.inl (.inl ⟨x, rfl⟩), h5.trans hgl⟩
          · simp only at h4; subst h4; rw [M.bind_hang e]; exact ⟨.inl (.inr rfl), h5.trans hgl⟩
    · exact .inl h2
    · exact .inr (.inl h2)
    · exact .inr (.inr ⟨.inl h2, h3⟩)
    · exact .inr (.inr ⟨.inr ⟨[], h2, fun _ _ => List.nil_prefix⟩, h3⟩)

end Mp4.Cut
