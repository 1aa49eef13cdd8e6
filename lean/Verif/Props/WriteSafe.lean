import Verif.Lemmas.Tidy
import Verif.Props.WriteFaults
import Verif.Props.StringifyTotal
import Verif.Props.Terminate

/-!
# C75: programs that write do not panic
-/

namespace Mp4.Props

open Mp4 Mp4.Edit Mp4.Rewrite Mp4.Spec

variable {d : Bytes}

/-! ## Calls of the writer -/

/-- The call returns, with a result or an error; if it succeeds, the open boxes are `l'` instead of `l`. -/
def OpMoves (F : Faults) (o : WOp) (l l' : List BoxInfo) : Prop :=
  ∀ w : WrSt, w.stack = l → (o.run F w).1 ≠ .panic ∧ (o.run F w).1 ≠ .hang ∧ ∀ x w', o.run F w = (.ok x, w') → w'.stack = l'

/-- does not panic or hang, and moves the stack -/
def WMoves {α : Type} (l l' : List BoxInfo) (x : WrM α) : Prop :=
  ∀ w : WrSt, w.stack = l → (x w).1 ≠ .panic ∧ (x w).1 ≠ .hang ∧ ∀ a w', x w = (.ok a, w') → w'.stack = l'

theorem WMoves.bind {α β : Type} {l1 l2 l3 : List BoxInfo} {x : WrM α} {k : α → WrM β} (hx : WMoves l1 l2 x) (hk : ∀ a, WMoves l2 l3 (k a)) :
    WMoves l1 l3 (x >>= k) := by
  intro w hw
  obtain ⟨h1, h2, h3⟩ := hx w hw
  rw [M.bind_run]
  cases e : x w with
  | mk o w' =>
    rw [e] at h1 h2
    cases o with
    | ok a => exact hk a w' (h3 a w' e)
    | err e => exact ⟨by simp, by simp, by simp⟩
    | panic => exact absurd rfl h1
    | hang => exact absurd rfl h2

theorem WMoves.pure {α : Type} (a : α) (l : List BoxInfo) : WMoves l l (Pure.pure a : WrM α) := by
  intro w hw
  refine ⟨by simp [M.pure_run], by simp [M.pure_run], fun x w' e => ?_⟩
  simp only [M.pure_run, Prod.mk.injEq] at e
  rw [← e.2]
  exact hw

theorem WMoves.fail {α : Type} (e : Err) (l l' : List BoxInfo) : WMoves l l' (M.fail e : WrM α) :=
  fun _ _ => ⟨by simp [M.fail], by simp [M.fail], fun _ _ h => by simp [M.fail] at h⟩

theorem WMoves.liftF {α : Type} {x : FM α} (h : ∀ f, (x f).1 ≠ .panic ∧ (x f).1 ≠ .hang) (l : List BoxInfo) : WMoves l l (Mp4.liftF x) := by
  intro w hw
  unfold Mp4.liftF
  cases e : x w.file with
  | mk o f =>
    obtain ⟨h1, h2⟩ := h w.file
    rw [e] at h1 h2
    refine ⟨h1, h2, fun a w' e => ?_⟩
    simp only [Prod.mk.injEq] at e
    rw [← e.2]
    exact hw

theorem fWrite_safe (F : Faults) (p : Bytes) (f : FSt) : (fWrite F p f).1 ≠ .panic ∧ (fWrite F p f).1 ≠ .hang := by
  unfold fWrite
  split <;> exact ⟨by simp, by simp⟩

theorem fSeekCur_safe (F : Faults) (f : FSt) : (fSeekCur F f).1 ≠ .panic ∧ (fSeekCur F f).1 ≠ .hang := by
  unfold fSeekCur
  split <;> exact ⟨by simp, by simp⟩

theorem fSeekStart_safe (F : Faults) (o : Nat) (f : FSt) : (fSeekStart F o f).1 ≠ .panic ∧ (fSeekStart F o f).1 ≠ .hang := by
  unfold fSeekStart
  split
  · exact ⟨by simp, by simp⟩
  · split <;> exact ⟨by simp, by simp⟩

theorem writeBoxInfo_moves (F : Faults) (bi : BoxInfo) (l : List BoxInfo) : WMoves l l (Mp4.liftF (writeBoxInfo F bi)) := by
  refine .liftF (fun f => ?_) l
  unfold writeBoxInfo
  rw [M.bind_run]
  cases e1 : fSeekCur F f with
  | mk o f1 =>
    have := fSeekCur_safe F f
    rw [e1] at this
    cases o with
    | ok a =>
      simp only
      rw [M.bind_run]
      cases e2 : fWrite F (boxInfoBytes bi) f1 with
      | mk o2 f2 =>
        have := fWrite_safe F (boxInfoBytes bi) f1
        rw [e2] at this
        cases o2 with
        | ok b => exact ⟨by simp [M.pure_run], by simp [M.pure_run]⟩
        | err e => exact ⟨by simp, by simp⟩
        | panic => exact absurd rfl this.1
        | hang => exact absurd rfl this.2
    | err e => exact ⟨by simp, by simp⟩
    | panic => exact absurd rfl this.1
    | hang => exact absurd rfl this.2

theorem write_moves (F : Faults) (p : Bytes) (l : List BoxInfo) : WMoves l l (Writer.write F p) := .liftF (fWrite_safe F p) l

theorem start_moves (F : Faults) (bi : BoxInfo) (l : List BoxInfo) :
    ∀ w : WrSt, w.stack = l → (WOp.run F (.start bi) w).1 ≠ .panic ∧ (WOp.run F (.start bi) w).1 ≠ .hang ∧
      ∀ x w', WOp.run F (.start bi) w = (.ok x, w') → ∃ b, w'.stack = b :: l := by
  intro w hw
  have h1 := writeBoxInfo_moves F bi l w hw
  unfold WOp.run Writer.startBox
  simp only [M.bind_run, M.pure_run, Writer.push, M.modify_run]
  cases e : Mp4.liftF (writeBoxInfo F bi) w with
  | mk o w1 =>
    rw [e] at h1
    cases o with
    | ok b =>
      refine ⟨by simp, by simp, fun x w' h => ?_⟩
      simp only [Prod.mk.injEq] at h
      rw [← h.2]
      exact ⟨b, by simp only; rw [h1.2.2 b w1 rfl]⟩
    | err e => exact ⟨by simp, by simp, by simp⟩
    | panic => exact absurd rfl h1.1
    | hang => exact absurd rfl h1.2.1

theorem close_moves (F : Faults) (b : BoxInfo) (l : List BoxInfo) : OpMoves F .close (b :: l) l := by
  have hp : WMoves (b :: l) l Writer.pop := by
    intro w hw
    unfold Writer.pop
    rw [hw]
    refine ⟨by simp, by simp, fun a w' e => ?_⟩
    simp only [Prod.mk.injEq] at e
    rw [← e.2]
  have : WMoves (b :: l) l (WOp.run F .close) := by
    refine WMoves.bind (l2 := l) ?_ fun _ => .pure _ _
    unfold Writer.endBox
    refine hp.bind fun bi => (WMoves.liftF (fSeekCur_safe F) l).bind fun last => (WMoves.liftF (fSeekStart_safe F _) l).bind fun _ =>
      (writeBoxInfo_moves F _ l).bind fun bi2 => ?_
    split
    · exact .fail _ _ _
    · exact (WMoves.liftF (fSeekStart_safe F _) l).bind fun _ => .pure _ _
  exact this

theorem copyLoop_moves (F : Faults) (l : List BoxInfo) : ∀ (n : Nat) (data : Bytes), data.length ≤ n → ∀ k, WMoves l l (copyLoop F data k)
  | 0, data, h, k => by
    rw [copyLoop, dif_pos (List.length_eq_zero_iff.1 (by omega))]
    exact .pure _ _
  | n + 1, data, h, k => by
    rw [copyLoop]
    split
    · exact .pure _ _
    · rename_i hne
      have : 0 < data.length := List.length_pos_iff.mpr hne
      exact (write_moves F _ l).bind fun _ => copyLoop_moves F l n _ (by simp only [List.length_drop, copyBuffer]; omega) _

theorem copy_moves (F : Faults) (src : Bytes) (bi : BoxInfo) (l : List BoxInfo) : OpMoves F (.copy src bi) l l := by
  have hc : WMoves l l (Writer.copyBox F src bi) := by
    intro w hw
    unfold Writer.copyBox
    cases e : seekStartP bi.offset 0 with
    | mk o pos =>
      cases o with
      | ok a =>
        refine WMoves.bind (l2 := l) ?_ (fun n => ?_) w hw
        · unfold copyNW
          refine (copyLoop_moves F l _ _ (Nat.le_refl _) 0).bind fun wr => ?_
          split
          · exact .pure _ _
          · split
            · exact .fail _ _ _
            · exact .pure _ _
        · split
          · exact .fail _ _ _
          · exact .pure _ _
      | err e => exact ⟨by simp, by simp, by simp⟩
      | panic => unfold seekStartP at e; split at e <;> simp at e
      | hang => unfold seekStartP at e; split at e <;> simp at e
  have : WMoves l l (WOp.run F (.copy src bi)) := hc.bind fun _ => .pure _ _
  exact this

theorem marshal_stack (F : Faults) (bd : BoxDef) (ctx : Ctx) (sv : SV) (w : WrSt) : (marshalBox bd (writerSink F) ctx sv w).2.stack = w.stack := by
  have hs : AlikeSink (fun a b : WrSt => a = b ∧ b.stack = w.stack) (writerSink F) (writerSink F) := by
    rintro p s t ⟨rfl, h⟩
    refine ⟨rfl, rfl, ?_⟩
    unfold writerSink Writer.write Mp4.liftF
    simp only
    cases e : fWrite F p s.file with
    | mk o f => cases o <;> exact h
  exact (alike_box hs bd ctx sv (s := w) (t := w) ⟨rfl, rfl⟩).2.2

theorem marshal_moves (F : Faults) {bd : BoxDef} {ctx : Ctx} {sv : SV} (l : List BoxInfo)
    (h : ∀ w, (marshalBox bd (writerSink F) ctx sv w).1 ≠ .panic ∧ (marshalBox bd (writerSink F) ctx sv w).1 ≠ .hang) : OpMoves F (.marshal bd ctx sv) l l := by
  intro w hw
  have hst := marshal_stack F bd ctx sv w
  obtain ⟨h1, h2⟩ := h w
  have hr : WOp.run F (.marshal bd ctx sv) w = (match marshalBox bd (writerSink F) ctx sv w with
    | (.ok _, s') => (.ok none, s')
    | (.err e, s') => (.err e, s')
    | (.panic, s') => (.panic, s')
    | (.hang, s') => (.hang, s')) := rfl
  rw [hr]
  cases e : marshalBox bd (writerSink F) ctx sv w with
  | mk o w' =>
    rw [e] at h1 h2 hst
    cases o with
    | ok a =>
      refine ⟨by simp, by simp, fun x w'' h => ?_⟩
      simp only [Prod.mk.injEq] at h
      rw [← h.2]
      exact hst.trans hw
    | err e => exact ⟨by simp, by simp, by simp⟩
    | panic => exact absurd rfl h1
    | hang => exact absurd rfl h2

/-! ## Handlers -/

/-- The program goes on, and these boxes are open. -/
def OpenBoxes (l : List BoxInfo) (s : St) : Prop := s.stop = none ∧ s.w.stack = l

theorem call_tidy {F : Faults} {o : WOp} {k : EProg} {m : BoxMap} {bi : BoxInfo} {fin l : List BoxInfo}
    (h : ∀ w : WrSt, w.stack = l → (o.run F w).1 ≠ .panic ∧ (o.run F w).1 ≠ .hang ∧
      ∀ x w', o.run F w = (.ok x, w') → k.Tidy OpenBoxes m d bi fin w'.stack) : (call F o k).Tidy OpenBoxes m d bi fin l := by
  intro s hs
  obtain ⟨h1, h2, h3⟩ := h s.w hs.2
  show Prog.Tidy _ _ _ _ _ _ (match o.run F s.w with
    | (.ok _, w) => .set { s with w := w } k
    | (.err e, w) => .set { s with w := w } (.err e)
    | (.panic, w) => .set ⟨w, some .panic⟩ (.err .eof)
    | (.hang, w) => .set ⟨w, some .hang⟩ (.err .eof))
  cases e : o.run F s.w with
  | mk r w =>
    rw [e] at h1 h2
    cases r with
    | ok x => exact ⟨w.stack, ⟨hs.1, rfl⟩, h3 x w e⟩
    | err e => exact ⟨w.stack, ⟨hs.1, rfl⟩, trivial⟩
    | panic => exact absurd rfl h1
    | hang => exact absurd rfl h2

theorem call_tidy' {F : Faults} {o : WOp} {k : EProg} {m : BoxMap} {bi : BoxInfo} {fin l l' : List BoxInfo} (h : OpMoves F o l l')
    (hk : k.Tidy OpenBoxes m d bi fin l') : (call F o k).Tidy OpenBoxes m d bi fin l :=
  call_tidy fun w hw => ⟨(h w hw).1, (h w hw).2.1, fun x w' e => ((h w hw).2.2 x w' e) ▸ hk⟩

/-- What has been read is a value of a definition of the library, for the type of the box, and what is needed for writing it. -/
theorem payload_fit (hd : d.length ≤ maxAlloc) {bi : BoxInfo} (hb : bi.offset + bi.headerSize ≤ d.length) {box : BoxVal} {n : Nat}
    (h : Payload BoxMap.std d bi box n) : BoxMap.std.getBoxDef bi.type bi.ctx = some box.bd ∧ box.bd ∈ Cat.allDefs ∧ typedFields box.bd.fields box.sv = true ∧
      (box.bd.goName = "Elst" ∨ box.bd.goName = "Tfra" → box.sv.version = 0 ∨ box.sv.version = 1) ∧
      ∀ ctx, box.bd.goName = "Esds" → noNilFields (env box.bd ctx box.sv) (some box.bd.cfo) box.bd.fields box.sv = true := by
  obtain ⟨p, h⟩ := h
  unfold BoxMap.unmarshalAny BoxMap.new at h
  cases hl : BoxMap.std.getBoxDef bi.type bi.ctx with
  | none => rw [hl] at h; cases h
  | some bd =>
    rw [hl] at h
    simp only at h
    split at h
    · next hr =>
      cases h
      exact ⟨rfl, std_mem hl, decoded_fit (std_mem hl) hd hb (zero_typedFields bd.fields) hr⟩
    all_goals cases h

theorem edited_fit (hd : d.length ≤ maxAlloc) {bi : BoxInfo} (hb : bi.offset + bi.headerSize ≤ d.length) {box : BoxVal} {n : Nat}
    (h : Payload BoxMap.std d bi box n) {cfg : Config} (ht : cfg.baseMediaDecodeTime < 2 ^ 64) {σ : Type} (k : Sink σ) :
    ∃ sv, editFields cfg bi.type box = some sv ∧ ∀ s, (marshalBox box.bd k bi.ctx sv s).1 ≠ .panic ∧ (marshalBox box.bd k bi.ctx sv s).1 ≠ .hang := by
  obtain ⟨h1, h2, h3, h4, h5⟩ := payload_fit hd hb h
  unfold editFields
  by_cases hx : bi.type = tTfdt
  · rw [if_pos hx]
    rw [hx, std_tfdt] at h1
    obtain ⟨bd, ty, sv⟩ := box
    simp only [Option.some.injEq] at h1
    subst h1
    simp only at *
    refine ⟨_, rfl, fun s => ?_⟩
    refine marshal_never_panics_partial _ h2 k _ _ ?_ (fun h => absurd h (by decide)) (fun h => absurd h (by decide)) s
    simp only
    have hnd := Fields.nodup_names _ (allDefs_nodup _ h2)
    split
    · split
      · refine typed_set (f := { name := "BaseMediaDecodeTimeV0", size := 32, version := 0 }) (t := .uint 32) hnd h3 ?_ ?_
        · simp [Cat.bdTfdt, Cat.fsTfdt, Fields.ofList, Fields.toList]
        · simp only [typedV, decide_eq_true_eq]
          omega
      · refine typed_set (f := { name := "BaseMediaDecodeTimeV1", size := 64, version := 1 }) (t := .uint 64) hnd h3 ?_ ?_
        · simp [Cat.bdTfdt, Cat.fsTfdt, Fields.ofList, Fields.toList]
        · simpa only [typedV, decide_eq_true_eq] using ht
    · exact h3
  · rw [if_neg hx]
    exact ⟨box.sv, rfl, fun s => marshal_never_panics_partial _ h2 k _ _ h3 h4 (h5 _) s⟩

theorem edit_tidy (hd : d.length ≤ maxAlloc) (F : Faults) {cfg : Config} (ht : cfg.baseMediaDecodeTime < 2 ^ 64) :
    TidyHandler OpenBoxes BoxMap.std d (Edit.handler F d cfg) := by
  intro p bi pre l hb
  unfold Edit.handler
  simp only []
  split
  · exact rfl
  · split
    · exact call_tidy' (copy_moves F d bi l) fun _ => rfl
    · refine call_tidy fun w hw => ?_
      obtain ⟨h1, h2, h3⟩ := start_moves F bi l w hw
      refine ⟨h1, h2, fun x w' e => ?_⟩
      obtain ⟨b, hb'⟩ := h3 x w' e
      rw [hb']
      refine ⟨fun _ => trivial, fun box n hp => ?_⟩
      obtain ⟨sv, h4, h5⟩ := edited_fit hd hb hp ht (writerSink F)
      unfold Edit.withPayload
      simp only [h4]
      exact call_tidy' (marshal_moves F _ h5) ⟨fun vs => call_tidy' (close_moves F b l) rfl, fun _ _ => trivial⟩

/-- If the type `t` has the Go type `go` in every context, and the change gives something that can be encoded. -/
theorem rewrite_tidy (hd : d.length ≤ maxAlloc) (F : Faults) {t : BoxType} {go : String} {f : SV → SV}
    (hgo : ∀ ctx bd, BoxMap.std.getBoxDef t ctx = some bd → bd.goName = go)
    (hf : ∀ bd ∈ Cat.allDefs, bd.goName = go → ∀ ctx sv, typedFields bd.fields sv = true →
      ∀ s, (marshalBox bd (writerSink F) ctx (f sv) s).1 ≠ .panic ∧ (marshalBox bd (writerSink F) ctx (f sv) s).1 ≠ .hang) :
    TidyHandler OpenBoxes BoxMap.std d (Rewrite.handler F d t go f) := by
  intro p bi pre l hb
  unfold Rewrite.handler
  simp only []
  split
  · next hty =>
    refine call_tidy fun w hw => ?_
    obtain ⟨h1, h2, h3⟩ := start_moves F bi l w hw
    refine ⟨h1, h2, fun x w' e => ?_⟩
    obtain ⟨b, hb'⟩ := h3 x w' e
    rw [hb']
    refine ⟨fun _ => trivial, fun box n hp => ?_⟩
    obtain ⟨h4, h5, h6, -, -⟩ := payload_fit hd hb hp
    have hg := hgo _ _ (hty ▸ h4)
    have ha : box.assert go = some box.sv := by
      unfold BoxVal.assert
      rw [if_pos hg]
    unfold Rewrite.withPayload
    simp only [ha]
    exact call_tidy' (marshal_moves F _ (hf _ h5 hg _ _ h6)) (call_tidy' (close_moves F b l) rfl)
  · exact call_tidy' (copy_moves F d bi l) fun _ => rfl

/-- The programs begin with nothing written. -/
def fresh : St := ⟨WrSt.new ⟨[], 0, 0⟩, none⟩

/-- What the program returns if the traversal returns `o`. -/
def returned {α : Type} : Out α → Out Unit
  | .ok _ => .ok ()
  | .err e => .err e
  | .panic => .panic
  | .hang => .hang

theorem returned_outcome (hd : d.length ≤ 2 ^ 48) {h : Handler St Unit Unit} (ht : TidyHandler OpenBoxes BoxMap.std d h) (fuel : Nat) :
    (match readBoxStructure BoxMap.std d h fuel () ⟨0, fresh, []⟩ with
    | (.ok _, s) => ((.ok (), s.user.w.file.data) : Out Unit × Bytes)
    | (.err e, s) => (((s.user.stop).map Stop.out).getD (.err e), s.user.w.file.data)
    | (.panic, s) => (.panic, s.user.w.file.data)
    | (.hang, s) => (.hang, s.user.w.file.data)).1 = returned (traverse d h fuel () fresh).1 := by
  obtain ⟨⟨l, h1⟩, -⟩ := tidy_readBoxStructure hd ht fuel () [] ⟨0, fresh, []⟩ ⟨rfl, rfl⟩
  unfold traverse
  cases e : readBoxStructure BoxMap.std d h fuel () ⟨0, fresh, []⟩ with
  | mk o s =>
    rw [e] at h1
    cases o with
    | err er =>
      have h2 : s.user.stop = none := h1.1
      simp only [h2]
      rfl
    | _ => rfl

theorem returned_panic {α : Type} {o : Out α} : returned o = .panic → o = .panic := by
  cases o <;> simp [returned]

theorem returned_hang {α : Type} {o : Out α} : returned o = .hang → o = .hang := by
  cases o <;> simp [returned]

/-- **C75** — `mp4tool edit` does not panic, whatever the input file contains, for all options, and whatever the output file does. -/
theorem edit_never_panics (hd : d.length ≤ 2 ^ 48) (F : Faults) (cfg : Config) (ht : cfg.baseMediaDecodeTime < 2 ^ 64) (fuel : Nat) :
    (editFile F d cfg fuel).1 ≠ .panic := by
  intro h
  exact traversal_never_panics hd _ fuel () fresh 0 (returned_panic ((returned_outcome hd (edit_tidy hd F ht) fuel).symm.trans h))

/-- **C75** — It returns, unless it meets a box whose announced size does not cover its header or runs past 2^64, or a `trun` box announcing 2^32-1
samples: the writing does not make it run forever. -/
theorem edit_returns_partial (hd : d.length ≤ 2 ^ 48) (F : Faults) (cfg : Config) (ht : cfg.baseMediaDecodeTime < 2 ^ 64) (fuel : Nat) (hf : d.length < 8 * fuel)
    (hreg : ∀ parent path bi, .enter parent path bi ∈ (traverse d (Edit.handler F d cfg) fuel () fresh).2.log → Regular bi ∧ ¬ AllOnesTrun d bi) :
    (editFile F d cfg fuel).1 = .ok () ∨ ∃ e, (editFile F d cfg fuel).1 = .err e := by
  have h1 := edit_never_panics hd F cfg ht fuel
  have h2 : (editFile F d cfg fuel).1 ≠ .hang := fun h =>
    traversal_terminates_partial hd _ fuel () fresh 0 hf hreg (returned_hang ((returned_outcome hd (edit_tidy hd F ht) fuel).symm.trans h))
  cases e : (editFile F d cfg fuel).1 with
  | ok u => exact .inl rfl
  | err er => exact .inr ⟨er, rfl⟩
  | panic => exact absurd e h1
  | hang => exact absurd e h2

/-- **C75** — The program of the README, for a type `t` of the library that has the Go type `go` wherever it occurs, other than the three for which the
generic encoder can panic, and a change that gives values of that Go type: it does not panic, whatever the file contains and the output file does. -/
theorem rewrite_never_panics_partial (hd : d.length ≤ 2 ^ 48) (F : Faults) (t : BoxType) (go : String) (f : SV → SV)
    (hgo : ∀ ctx bd, BoxMap.std.getBoxDef t ctx = some bd → bd.goName = go) (hn : go ≠ "Elst" ∧ go ≠ "Tfra" ∧ go ≠ "Esds")
    (hf : ∀ bd ∈ Cat.allDefs, bd.goName = go → ∀ sv, typedFields bd.fields sv = true → typedFields bd.fields (f sv) = true) (fuel : Nat) :
    (rewriteFile F d t go f fuel).1 ≠ .panic := by
  intro h
  refine traversal_never_panics hd _ fuel () fresh 0 (returned_panic ((returned_outcome hd (rewrite_tidy hd F hgo ?_) fuel).symm.trans h))
  intro bd hbd hg ctx sv hty s
  refine marshal_never_panics_partial _ hbd _ _ _ (hf bd hbd hg sv hty) (fun h => ?_) (fun h => ?_) s
  · rcases h with h | h
    · exact absurd (hg.symm.trans h) hn.1
    · exact absurd (hg.symm.trans h) hn.2.1
  · exact absurd (hg.symm.trans h) hn.2.2

/-- **C75** — So the program as printed does not panic, with any message. -/
theorem readme_never_panics (hd : d.length ≤ 2 ^ 48) (F : Faults) (msg : Bytes) (fuel : Nat) :
    (rewriteFile F d tEmsg "Emsg" (setMessage msg) fuel).1 ≠ .panic := by
  refine rewrite_never_panics_partial hd F tEmsg "Emsg" (setMessage msg) (fun ctx bd h => ?_) (by decide) (fun bd hbd hn sv hty => ?_) fuel
  · rw [std_emsg] at h
    cases h
    rfl
  · obtain rfl := bd_emsg bd hbd hn
    unfold setMessage
    refine typed_set (f := { name := "MessageData", size := 8, isString := true }) (t := .slice (.uint 8)) (Fields.nodup_names _ (allDefs_nodup _ hbd)) hty ?_ ?_
    · simp [Cat.bdEmsg, Cat.fsEmsg, Fields.ofList, Fields.toList]
    · simp only [typedV, List.all_eq_true, List.mem_map]
      rintro x ⟨b, _, rfl⟩
      simpa [typedV] using b.isLt

/-! ## Without the conditions -/

/-- With the type assertion of another Go type the program panics. -/
theorem rewrite_wrong_type_panics : (rewriteFile noFaults eventFile tEmsg "Meta" id 4).1 = .panic := by decide +kernel

/-! ## Cases -/

/-- On a device where nothing can be written. -/
example : (editFile ⟨fun _ => some 0, fun _ => true⟩ stcoFile (Config.ofOptions none []) 3).1 = .err .sink := by decide +kernel
example : stcoFile.length ≤ 2 ^ 48 ∧ (Config.ofOptions none []).baseMediaDecodeTime < 2 ^ 64 := by decide +kernel

end Mp4.Props
