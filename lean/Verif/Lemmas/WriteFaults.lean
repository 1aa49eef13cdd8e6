import Verif.Lemmas.Write
import Verif.Lemmas.SimulateUpTo
import Verif.Lemmas.MarshalErr

/-!
# Calls of a writer that succeed although the destination may fail
-/

namespace Mp4

variable {A α β : Type} {c : A → Nat}

/-- If the first succeeds, so does the second, with the same result and state; the counter has not gone back. -/
def OkSame (c : A → Nat) (m n : M A α) : Prop := ∀ a v s, m a = (.ok v, s) → n a = (.ok v, s) ∧ c a ≤ c s

namespace OkSame

theorem pure (v : α) : OkSame c (Pure.pure v : M A α) (Pure.pure v) := by
  intro a w s h
  refine ⟨h, ?_⟩
  rw [M.pure_run] at h
  cases h
  exact Nat.le_refl _

theorem fail (e : Err) (n : M A α) : OkSame c (M.fail e : M A α) n := by
  intro a w s h
  cases h

theorem bind {m n : M A α} {k l : α → M A β} (h : OkSame c m n) (hk : ∀ x, OkSame c (k x) (l x)) : OkSame c (m >>= k) (n >>= l) := by
  intro a w s h0
  obtain ⟨x, s1, h1, h2⟩ := bind_ok_inv h0
  obtain ⟨e1, c1⟩ := h a x s1 h1
  obtain ⟨e2, c2⟩ := hk x s1 w s h2
  exact ⟨(M.bind_ok e1).trans e2, Nat.le_trans c1 c2⟩

/-- nothing is done with the counter -/
theorem same (m : M A α) (h : ∀ a, c (m a).2 = c a) : OkSame c m m := by
  intro a v s e
  refine ⟨e, ?_⟩
  have := h a
  rw [e] at this
  exact Nat.le_of_eq this.symm

end OkSame

/-! ## The file -/

def callsF (s : FSt) : Nat := s.calls
def callsW (s : WrSt) : Nat := s.file.calls

theorem same_fWrite (F : Faults) (p : Bytes) : OkSame callsF (fWrite F p) (fWrite noFaults p) := by
  intro a v s h
  unfold fWrite at h
  split at h
  · cases h
    exact ⟨rfl, Nat.le_succ _⟩
  · cases h

theorem same_fSeekCur (F : Faults) : OkSame callsF (fSeekCur F) (fSeekCur noFaults) := by
  intro a v s h
  unfold fSeekCur at h
  split at h
  · cases h
  · cases h
    exact ⟨rfl, Nat.le_succ _⟩

theorem same_fSeekStart (F : Faults) (off : Nat) : OkSame callsF (fSeekStart F off) (fSeekStart noFaults off) := by
  intro a v s h
  unfold fSeekStart at h
  split at h
  · cases h
  · split at h
    · cases h
    · next h2 =>
      cases h
      refine ⟨?_, Nat.le_succ _⟩
      unfold fSeekStart
      rw [if_neg (by simp [noFaults]), if_neg h2]

theorem same_liftF {m n : FM α} (h : OkSame callsF m n) : OkSame callsW (liftF m) (liftF n) := by
  intro a v s e
  unfold liftF at e
  cases e1 : m a.file with
  | mk r f =>
    rw [e1] at e
    simp only [Prod.mk.injEq] at e
    obtain ⟨rfl, rfl⟩ := e
    obtain ⟨h1, h2⟩ := h _ _ _ e1
    refine ⟨?_, h2⟩
    unfold liftF
    rw [h1]

theorem same_writeBoxInfo (F : Faults) (bi : BoxInfo) : OkSame callsF (writeBoxInfo F bi) (writeBoxInfo noFaults bi) :=
  .bind (same_fSeekCur F) fun _ => .bind (same_fWrite F _) fun _ => .pure _

/-! ## The writer -/

theorem same_write (F : Faults) (p : Bytes) : OkSame callsW (Writer.write F p) (Writer.write noFaults p) := same_liftF (same_fWrite F p)

theorem same_startBox (F : Faults) (bi : BoxInfo) : OkSame callsW (Writer.startBox F bi) (Writer.startBox noFaults bi) :=
  .bind (same_liftF (same_writeBoxInfo F bi)) fun _ => .bind (.same _ fun _ => rfl) fun _ => .pure _

theorem same_endBox (F : Faults) : OkSame callsW (Writer.endBox F) (Writer.endBox noFaults) := by
  unfold Writer.endBox
  refine .bind (.same _ fun a => ?_) fun bi => .bind (same_liftF (same_fSeekCur F)) fun last => .bind (same_liftF (same_fSeekStart F _)) fun _ =>
    .bind (same_liftF (same_writeBoxInfo F _)) fun bi2 => ?_
  · unfold Writer.pop
    split <;> rfl
  · split
    · exact .fail _ _
    · exact .bind (same_liftF (same_fSeekStart F _)) fun _ => .pure _

theorem same_copyLoop (F : Faults) : ∀ (k : Nat) (data : Bytes) (n : Nat), data.length ≤ k → OkSame callsW (copyLoop F data n) (copyLoop noFaults data n)
  | 0, data, n, hk => by
    obtain rfl : data = [] := List.length_eq_zero_iff.1 (by omega)
    have e : ∀ F, copyLoop F [] n = Pure.pure n := by
      intro F
      rw [copyLoop, dif_pos rfl]
    rw [e, e]
    exact .pure _
  | k + 1, data, n, hk => by
    by_cases h : data = []
    · subst h
      exact same_copyLoop F k [] n (Nat.zero_le _)
    · have e : ∀ F, copyLoop F data n = (do
          Writer.write F (data.take copyBuffer)
          copyLoop F (data.drop copyBuffer) (n + (data.take copyBuffer).length)) := by
        intro F
        rw [copyLoop, dif_neg h]
      rw [e, e]
      have : 0 < data.length := List.length_pos_iff.mpr h
      exact .bind (same_write F _) fun _ => same_copyLoop F k _ _ (by simp only [List.length_drop, copyBuffer]; omega)

theorem same_copyBox (F : Faults) (src : Bytes) (bi : BoxInfo) : OkSame callsW (Writer.copyBox F src bi) (Writer.copyBox noFaults src bi) := by
  intro a v s h
  unfold Writer.copyBox at h ⊢
  cases e : seekStartP bi.offset 0 with
  | mk r pos =>
    rw [e] at h
    cases r with
    | ok x =>
      simp only at h ⊢
      refine OkSame.bind ?_ (fun n => ?_) a v s h
      · unfold copyNW
        refine .bind (same_copyLoop F _ _ _ (Nat.le_refl _)) fun w => ?_
        split
        · exact .pure _
        · split
          · exact .fail _ _
          · exact .pure _
      · split
        · exact .fail _ _
        · exact .pure _
    | err e => cases h
    | panic => cases h
    | hang => cases h

/-! ## `Marshal` -/

/-- a `Write` that was, or may have been, made since `a` would have failed -/
def WroteBadly (F : Faults) (a b : WrSt) : Prop := ∃ n, a.file.calls ≤ n ∧ n < b.file.calls ∧ F.write n ≠ none

private theorem sink_calls (F : Faults) (p : Bytes) (s : WrSt) : callsW ((writerSink F).write p s).2 = callsW s + 1 := by
  unfold writerSink Writer.write liftF fWrite
  simp only
  cases F.write s.file.calls <;> rfl

/-- `Marshal` behaves as if nothing could fail, unless a `Write` has failed. -/
theorem marshal_same (F : Faults) (bd : BoxDef) (ctx : Ctx) (sv : SV) (s : WrSt) :
    WroteBadly F s (marshalBox bd (writerSink F) ctx sv s).2 ∨
      marshalBox bd (writerSink F) ctx sv s = marshalBox bd (writerSink noFaults) ctx sv s := by
  have := up_box (R := fun (x y : WrSt) => x = y ∧ s.file.calls ≤ x.file.calls) (Bad := fun x => WroteBadly F s x)
    (k := writerSink F) (l := writerSink noFaults) ⟨by
      rintro p x y ⟨rfl, hx⟩
      by_cases hf : F.write x.file.calls = none
      · refine .inr ?_
        simp only [writerSink, Writer.write, liftF, fWrite, hf, noFaults]
        exact ⟨trivial, trivial, Nat.le_succ_of_le hx⟩
      · refine .inl ⟨x.file.calls, hx, ?_, hf⟩
        have := sink_calls F p x
        simp only [callsW] at this
        omega, by
      rintro p x ⟨n, h1, h2, h3⟩
      refine ⟨n, h1, ?_, h3⟩
      have := sink_calls F p x
      simp only [callsW] at this
      omega⟩ bd ctx sv (s := s) (t := s) ⟨rfl, Nat.le_refl _⟩
  rcases this with h | ⟨h1, h2, _⟩
  · exact .inl h
  · exact .inr (Prod.ext h1 h2)

/-- `Marshal` does not turn the number of calls back. -/
theorem marshal_calls (F : Faults) (bd : BoxDef) (ctx : Ctx) (sv : SV) (s : WrSt) :
    s.file.calls ≤ (marshalBox bd (writerSink F) ctx sv s).2.file.calls := by
  refine (alike_box (R := fun (x y : WrSt) => s.file.calls ≤ x.file.calls ∧ x = y) (k := writerSink F) (l := writerSink F) ?_
    bd ctx sv (s := s) (t := s) ⟨Nat.le_refl _, rfl⟩).2.1
  rintro p x y ⟨hx, rfl⟩
  refine ⟨rfl, ?_, rfl⟩
  have := sink_calls F p x
  simp only [callsW] at this
  omega

/-- A type that does not lose errors: success means that no `Write` has failed. -/
theorem marshal_honest {bd : BoxDef} (hbd : bd ∈ Cat.allDefs) (hl : bd.goName ∉ mayLoseErrors) (F : Faults) (ctx : Ctx) (sv : SV)
    (hty : Spec.typedFields bd.fields sv = true) (s s' : WrSt) (n : Nat) (h : marshalBox bd (writerSink F) ctx sv s = (.ok n, s')) :
    ¬ WroteBadly F s s' := by
  have hr := alike_box (R := fun (x : WrSt) (y : WrSt × Bool) => x = y.1 ∧ s.file.calls ≤ x.file.calls ∧ (y.2 = false → ¬ WroteBadly F s x))
    (k := writerSink F) (l := Spec.watch (writerSink F)) (by
      rintro p x ⟨y, b⟩ ⟨rfl, hx, hb⟩
      have hc := sink_calls F p x
      simp only [callsW] at hc
      have hw : ((writerSink F).write p x).1 = true → F.write x.file.calls = none := by
        unfold writerSink Writer.write liftF fWrite
        simp only
        cases F.write x.file.calls <;> simp
      unfold Spec.watch
      simp only
      cases e : (writerSink F).write p x with
      | mk r t =>
        rw [e] at hc hw
        simp only at hc hw
        cases r with
        | false => exact ⟨rfl, rfl, by simp only; omega, by simp⟩
        | true =>
          refine ⟨rfl, rfl, by simp only; omega, ?_⟩
          simp only
          rintro hb' ⟨n, h1, h2, h3⟩
          by_cases hn : n < x.file.calls
          · exact hb hb' ⟨n, h1, hn, h3⟩
          · obtain rfl : n = x.file.calls := by omega
            exact h3 (hw rfl)) bd ctx sv (s := s) (t := (s, false)) ⟨rfl, Nat.le_refl _, fun _ ⟨n, h1, h2, _⟩ => by omega⟩
  rw [h] at hr
  obtain ⟨h1, h2, _, h3⟩ := hr
  cases e : marshalBox bd (Spec.watch (writerSink F)) ctx sv (s, false) with
  | mk r t =>
    rw [e] at h1 h2 h3
    simp only at h1 h2 h3
    obtain ⟨t, b⟩ := t
    have := marshalBox_honest (allDefs_nodup bd hbd) (allDefs_honest bd hbd hl) hty (h1 ▸ e)
    exact h3 this

end Mp4
