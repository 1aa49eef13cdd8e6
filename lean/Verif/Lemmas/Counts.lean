import Verif.Lemmas.Marshal
import Verif.Model.Catalog

/-!
# The marshaller counts what it writes

For every value, also one that cannot be represented.
-/

namespace Mp4

/-- Whatever the outcome, the destination has grown by some bits and `wbits` by their number. -/
def Counts {α : Type} (m : MM Bytes α) : Prop :=
  ∀ s : MSt Bytes, s.w.WF → ∃ bs : List Bool, (m s).2.w.WF ∧ (m s).2.w.bits = s.w.bits ++ bs ∧
    (m s).2.wbits = s.wbits + bs.length

namespace Counts

variable {α β : Type}

theorem unchanged {m : MM Bytes α} (h : ∀ s, (m s).2 = s) : Counts m := by
  intro s hs
  exact ⟨[], by rw [h]; exact hs, by rw [h]; simp, by rw [h]; simp⟩

theorem pure (a : α) : Counts (Pure.pure a : MM Bytes α) := unchanged (fun _ => rfl)
theorem fail (e : Err) : Counts (M.fail e : MM Bytes α) := unchanged (fun _ => rfl)
theorem panic : Counts (M.panic : MM Bytes α) := unchanged (fun _ => rfl)

theorem bind {m : MM Bytes α} {k : α → MM Bytes β} (hm : Counts m) (hk : ∀ a, Counts (k a)) :
    Counts (m >>= k) := by
  intro s hs
  obtain ⟨b1, w1, e1, c1⟩ := hm s hs
  rw [M.bind_run]
  cases h : m s with
  | mk r s1 =>
    rw [h] at w1 e1 c1
    cases r with
    | ok a =>
      obtain ⟨b2, w2, e2, c2⟩ := hk a s1 w1
      exact ⟨b1 ++ b2, w2, by rw [e2, e1, List.append_assoc], by rw [c2, c1, List.length_append]; omega⟩
    | err e => exact ⟨b1, w1, e1, c1⟩
    | panic => exact ⟨b1, w1, e1, c1⟩
    | hang => exact ⟨b1, w1, e1, c1⟩

theorem get_bind {k : MSt Bytes → MM Bytes β} (hk : ∀ a, Counts (k a)) : Counts (M.get >>= k) :=
  bind (unchanged (fun _ => rfl)) hk

theorem dropErr {m : MM Bytes Unit} (hm : Counts m) : Counts (Mp4.dropErr m) := by
  intro s hs
  obtain ⟨b1, w1, e1, c1⟩ := hm s hs
  unfold Mp4.dropErr
  cases h : m s with
  | mk r s1 => rw [h] at w1 e1 c1; cases r <;> exact ⟨b1, w1, e1, c1⟩

/-- write something and count it -/
theorem count {m : WM Bytes α} {k : α → MM Bytes β} {n : α → Nat}
    (hm : ∀ w : WSt Bytes, w.WF → (∃ w' bs a, m w = (.ok a, w') ∧ w'.WF ∧ w'.bits = w.bits ++ bs ∧
        n a = bs.length) ∨ (∃ e, m w = (.err e, w)))
    (hk : ∀ a, Counts (k a)) : Counts (do let a ← liftW m; addW (n a); k a) := by
  intro s hs
  rcases hm s.w hs with ⟨w', bs, a, e1, w1, b1, n1⟩ | ⟨e, e1⟩
  · obtain ⟨b2, w2, e2, c2⟩ := hk a ⟨w', s.wbits + n a⟩ w1
    have hrun : (do let a ← liftW m; addW (n a); k a : MM Bytes β) s = k a ⟨w', s.wbits + n a⟩ := by
      rw [M.bind_ok (a := a) (s' := ⟨w', s.wbits⟩) (by simp [liftW, e1]),
        M.bind_ok (a := ()) (s' := ⟨w', s.wbits + n a⟩) (by simp [addW, M.modify])]
    rw [hrun]
    exact ⟨bs ++ b2, w2, by rw [e2, b1, List.append_assoc], by
      rw [c2, List.length_append]; simp only; omega⟩
  · have hrun : (do let a ← liftW m; addW (n a); k a : MM Bytes β) s = (.err e, s) := by
      rw [M.bind_err (e := e) (s' := s) (by simp [liftW, e1])]
    rw [hrun]
    exact ⟨[], hs, by simp, by simp⟩

theorem bits {data : Bytes} {sz : Nat} {k : MM Bytes β} (h : sz ≤ 8 * data.length) (hk : Counts k) :
    Counts (do liftW (writeBits memSink data sz); addW sz; k) := by
  apply count (n := fun _ => sz) (k := fun _ => k) _ (fun _ => hk)
  intro w hw
  obtain ⟨w', e, hb, f⟩ := writeBits_mem hw h
  left
  exact ⟨w', _, (), e, f, hb, by simp; omega⟩

theorem bits1 {data : Bytes} {sz : Nat} (h : sz ≤ 8 * data.length) :
    Counts (do liftW (writeBits memSink data sz); addW sz) := by
  have := bits (k := Pure.pure ()) h (Counts.pure ())
  exact this

end Counts

theorem counts_uintLoop (size val : Nat) : ∀ n i, i < size ∨ n = 0 →
    8 * n + i < size + 8 ∨ n = 0 → Counts (marshalUintLoop memSink size val n i)
  | 0, i, _, _ => Counts.pure ()
  | n + 1, i, h1, h2 => by
    simp only [marshalUintLoop]
    refine Counts.bits ?_ (counts_uintLoop size val n (i + 8) ?_ ?_)
    · simp only [intChunk, List.length_singleton]; split <;> omega
    · by_cases hn : n = 0
      · exact Or.inr hn
      · left; omega
    · by_cases hn : n = 0
      · exact Or.inr hn
      · left; omega

theorem counts_intLoop (size val : Nat) (sign : Bool) : ∀ n i, i < size ∨ n = 0 →
    8 * n + i < size + 8 ∨ n = 0 → Counts (marshalIntLoop memSink size val sign n i)
  | 0, i, _, _ => Counts.pure ()
  | n + 1, i, h1, h2 => by
    simp only [marshalIntLoop]
    refine Counts.bits ?_ (counts_intLoop size val sign n (i + 8) ?_ ?_)
    · simp only [intChunk, List.length_singleton]; split <;> omega
    · by_cases hn : n = 0
      · exact Or.inr hn
      · left; omega
    · by_cases hn : n = 0
      · exact Or.inr hn
      · left; omega

theorem counts_uvarint (u : Nat) : Counts (writeUvarint memSink u) := by
  unfold writeUvarint
  refine Counts.bits (by simp) (Counts.bits (by simp) (Counts.bits (by simp) (Counts.bits1 (by simp))))

theorem counts_stringLoop : ∀ b : Bytes, Counts (marshalStringLoop memSink b)
  | [] => Counts.pure ()
  | b :: bs => by
    simp only [marshalStringLoop]
    exact Counts.bits (by simp) (counts_stringLoop bs)

theorem counts_forElems {f : Val → MM Bytes Unit} (hf : ∀ v, Counts (f v)) : ∀ l, Counts (forElems f l)
  | [] => Counts.pure ()
  | v :: vs => by
    simp only [forElems]
    exact Counts.bind (hf v) (fun _ => counts_forElems hf vs)

theorem valBytes_length (l : List Val) : (valBytes l).length = l.length := by simp [valBytes]

theorem counts_elems {isByte : Bool} {fi : Field} {f : Val → MM Bytes Unit} (hf : ∀ v, Counts (f v))
    (l : List Val) : Counts (marshalElems memSink isByte fi f l) := by
  unfold marshalElems
  apply Counts.get_bind
  intro s
  split
  · have := Counts.count (m := copyBytes memSink (valBytes l)) (k := fun _ => Pure.pure ())
      (n := fun _ => l.length * 8) (by
        intro w hw
        unfold copyBytes
        split
        · next h =>
          left
          have : l.length = 0 := by rw [← valBytes_length, h]; rfl
          exact ⟨w, [], (), by simp, hw, by simp, by simp [this]⟩
        · by_cases h0 : w.width = 0
          · obtain ⟨w', e, b, f⟩ := writeRaw_mem (p := valBytes l) hw h0
            left
            exact ⟨w', _, (), e, f, b, by simp [valBytes_length]; omega⟩
          · right
            exact ⟨_, by rw [writeRaw, if_pos h0]⟩) (fun _ => Counts.pure ())
    exact this
  · exact counts_forElems (fun v => (hf v).dropErr) l

theorem counts_onWrite {h : Hook} {n : String} {sv : SV} {k : Nat × Bool → MM Bytes Unit}
    (hk : ∀ a, Counts (k a)) :
    Counts (do let a ← liftW (onWrite h memSink n sv); addW a.1; k a) := by
  apply Counts.count (n := fun a => a.1) _ hk
  intro w hw
  have hpure : ∀ b, (∃ w' bs a, (Pure.pure (0, b) : WM Bytes (Nat × Bool)) w = (.ok a, w') ∧ w'.WF ∧
      w'.bits = w.bits ++ bs ∧ a.1 = bs.length) ∨
      (∃ e, (Pure.pure (0, b) : WM Bytes (Nat × Bool)) w = (.err e, w)) := fun b =>
    Or.inl ⟨w, [], (0, b), by simp, hw, by simp, by simp⟩
  cases h with
  | none => exact hpure _
  | hdlr => exact hpure _
  | avcc =>
    simp only [onWrite]
    split
    · split
      · exact Or.inr ⟨_, rfl⟩
      · exact hpure _
    · exact hpure _
  | emsg =>
    simp only [onWrite]
    split
    · exact hpure _
    · split
      · exact hpure _
      · split
        · have hs : ∀ (w : WSt Bytes) (b : Bytes), w.WF → w.width = 0 →
              ∃ w', writeStringZ memSink b w = (.ok (), w') ∧ w'.WF ∧ w'.width = 0 ∧
                w'.bits = w.bits ++ (bytesBits (b ++ [0#8])) := by
            intro w b hw h0
            have hr : ∀ (w : WSt Bytes) (p : Bytes), w.width = 0 →
                writeRaw memSink p w = (.ok (), { w with sink := w.sink ++ p }) := by
              intro w p h; simp [writeRaw, h, memSink]
            refine ⟨{ w with sink := w.sink ++ b ++ [0#8] }, ?_, ⟨hw.width, hw.zero⟩, h0, ?_⟩
            · rw [writeStringZ, M.bind_ok (hr w b h0), hr _ _ (by simpa using h0)]
            · simp [WSt.bits, h0, bytesBits_append]
          by_cases h0 : w.width = 0
          · obtain ⟨w1, e1, f1, z1, b1⟩ := hs w (sv.str "SchemeIdUri") hw h0
            obtain ⟨w2, e2, f2, z2, b2⟩ := hs w1 (sv.str "Value") f1 z1
            left
            refine ⟨w2, _, (((sv.str "SchemeIdUri").length + (sv.str "Value").length + 2) * 8, false), ?_, f2,
              by rw [b2, b1, List.append_assoc], ?_⟩
            · rw [M.bind_ok e1, M.bind_ok e2]; rfl
            · simp; omega
          · right
            exact ⟨_, by rw [writeStringZ, M.bind_err (e := .bitAlignment) (s' := w)]; rw [M.bind_err (e := .bitAlignment) (s' := w)]; rw [writeRaw, if_pos h0]⟩
        · exact hpure _

/-- Elements that contain a `bool` are at most 8 bits wide (wider ones would be counted but not
written). -/
def Ty.hasBool : Ty → Bool
  | .bool => true
  | .ptr t => t.hasBool
  | .arr _ t => t.hasBool
  | .slice t => t.hasBool
  | _ => false

mutual
/-- `bool` fields have a fixed size of at most 8 bits. -/
def Ty.boolsOk : Ty → Bool
  | .ptr t => t.boolsOk
  | .arr _ t => t.boolsOk
  | .slice t => t.boolsOk
  | .struct _ fs => fs.boolsOk
  | _ => true
/-- `bool` fields have a fixed size of at most 8 bits. -/
def Fields.boolsOk : Fields → Bool
  | .nil => true
  | .cons f t fs => (!t.hasBool || (!f.sizeDyn && decide (f.size ≤ 8))) && t.boolsOk && fs.boolsOk
end

theorem resolve_static {c : Cfo} {ctx : Ctx} {csv : SV} {f fi : Field} (h : f.sizeDyn = false)
    (hr : resolve c ctx csv f = some fi) : fi.size = f.size := by
  unfold resolve at hr
  simp only [h, Bool.false_eq_true, if_false, Option.bind_eq_bind, Option.bind_some] at hr
  by_cases hl : f.lenDyn = true
  · rw [if_pos hl] at hr
    cases hc : c.length f.name ctx csv with
    | none => rw [hc] at hr; simp at hr
    | some l =>
      rw [hc] at hr
      simp only [Option.bind_some, Option.some.injEq] at hr
      rw [← hr]
  · rw [if_neg hl] at hr
    simp only [Option.bind_some, Option.some.injEq] at hr
    rw [← hr]

mutual
theorem counts_V (e : MEnv Bytes) (he : e.sink = memSink) :
    ∀ (t : Ty) (fi : Field) (v : Val), t.boolsOk = true → (t.hasBool = true → fi.size ≤ 8) →
      Counts (marshalV e t fi v)
  | .ptr t, fi, v, hb, hs => by
    simp only [Ty.boolsOk] at hb
    cases v <;> simp only [marshalV] <;> try exact Counts.panic
    case ptr o =>
      cases o with
      | none => exact Counts.panic
      | some x => exact counts_V e he t fi x hb (fun h => hs (by simpa [Ty.hasBool] using h))
  | .struct c fs, fi, v, hb, hs => by
    simp only [Ty.boolsOk] at hb
    cases v <;> simp only [marshalV] <;> try exact Counts.panic
    exact counts_fields e he false c fs _ hb
  | .arr _ t, fi, v, hb, hs => by
    simp only [Ty.boolsOk] at hb
    cases v <;> simp only [marshalV] <;> try exact Counts.panic
    exact counts_forElems (fun x => counts_V e he t fi x hb (fun h => hs (by simpa [Ty.hasBool] using h))) _
  | .slice t, fi, v, hb, hs => by
    simp only [Ty.boolsOk] at hb
    cases v <;> simp only [marshalV] <;> try exact Counts.panic
    split
    · exact Counts.fail _
    · rw [he]
      exact counts_elems (fun x => counts_V e he t fi x hb (fun h => hs (by simpa [Ty.hasBool] using h))) _
  | .int _, fi, v, hb, hs => by
    cases v <;> simp only [marshalV] <;> try exact Counts.panic
    split
    · exact Counts.fail _
    · rw [he]
      exact counts_intLoop _ _ _ _ _ (by omega) (by omega)
  | .uint _, fi, v, hb, hs => by
    cases v <;> simp only [marshalV] <;> try exact Counts.panic
    split
    · rw [he]; exact (counts_uvarint _).dropErr
    · rw [he]
      exact counts_uintLoop _ _ _ _ (by omega) (by omega)
  | .bool, fi, v, hb, hs => by
    cases v <;> simp only [marshalV] <;> try exact Counts.panic
    rw [he]
    exact Counts.bits1 (by simpa using hs rfl)
  | .str, fi, v, hb, hs => by
    cases v <;> simp only [marshalV] <;> try exact Counts.panic
    rw [he]
    refine Counts.bind (counts_stringLoop _) (fun _ => ?_)
    split
    · exact Counts.pure ()
    · exact Counts.bits1 (by simp)
theorem counts_fields (e : MEnv Bytes) (he : e.sink = memSink) (top : Bool) (c : Option Cfo) :
    ∀ (fs : Fields) (sv : SV), fs.boolsOk = true → Counts (marshalFields e top c fs sv)
  | .nil, sv, hb => by simp only [marshalFields]; exact Counts.pure ()
  | .cons f t fs, sv, hb => by
    simp only [Fields.boolsOk] at hb
    rw [Bool.and_eq_true, Bool.and_eq_true] at hb
    simp only [marshalFields]
    have hrec := counts_fields e he top c fs sv hb.2
    generalize (if c.isSome = true then sv else e.root) = csv
    split
    · exact Counts.panic
    · next fi hres =>
      split
      · exact hrec
      · have hk : ∀ ov : Bool, Counts (if ov = true then marshalFields e top c fs sv
            else match sv.get f.name with
              | none => M.panic
              | some v => do marshalV e t fi v; marshalFields e top c fs sv) := by
          intro ov
          split
          · exact hrec
          · split
            · exact Counts.panic
            · next v _ =>
              refine Counts.bind (counts_V e he t fi v hb.1.2 ?_) (fun _ => hrec)
              intro hbool
              have h1 := hb.1.1
              rw [hbool] at h1
              simp only [Bool.not_true, Bool.false_or, Bool.and_eq_true, Bool.not_eq_true',
                decide_eq_true_eq] at h1
              rw [resolve_static h1.1 hres]
              exact h1.2
        cases top with
        | true =>
          simp only [if_true]
          rw [he]
          exact counts_onWrite (k := fun a => if a.2 = true then marshalFields e true c fs sv
            else match sv.get f.name with
              | none => M.panic
              | some v => do marshalV e t fi v; marshalFields e true c fs sv) (fun a => hk a.2)
        | false =>
          simp only [Bool.false_eq_true, if_false]
          intro s hs
          have := hk false s hs
          simp only [Bool.false_eq_true, if_false] at this
          exact this
end

theorem allDefs_boolsOk : ∀ bd ∈ Cat.allDefs, bd.fields.boolsOk = true := by
  have h : Cat.allDefs.all (fun bd => bd.fields.boolsOk) = true := by decide
  exact List.all_eq_true.mp h

/-- When `Marshal` succeeds it has appended exactly the number of bytes it reports. -/
theorem marshalBox_counts {bd : BoxDef} (hb : bd.fields.boolsOk = true) {ctx : Ctx} {sv : SV}
    {out out' : Bytes} {n : Nat} (h : marshalBox bd memSink ctx sv out = (.ok n, out')) :
    ∃ p : Bytes, out' = out ++ p ∧ p.length = n := by
  obtain ⟨bs, w1, e1, c1⟩ := counts_fields (bd.menv memSink ctx sv) rfl true (some bd.cfo) bd.fields sv hb
    ⟨WSt.fresh out, 0⟩ (WSt.fresh_wf out)
  unfold marshalBox at h
  cases hr : marshalFields (bd.menv memSink ctx sv) true (some bd.cfo) bd.fields sv ⟨WSt.fresh out, 0⟩ with
  | mk r st =>
    rw [hr] at h w1 e1 c1
    cases r <;> simp only at h
    case ok u =>
      split at h
      · simp at h
      · next h8 =>
        simp only [Prod.mk.injEq, Out.ok.injEq] at h
        simp only [Nat.zero_add, WSt.fresh_bits] at c1 e1
        have hl := congrArg List.length e1
        rw [WSt.bits_length _ w1, List.length_append, bytesBits_length] at hl
        have hw := w1.width
        simp only at hl hw h8 c1
        have h0 : st.w.width = 0 := by omega
        have hb : st.w.bits = bytesBits st.w.sink := by simp [WSt.bits, h0]
        have h8' : bs.length % 8 = 0 := by omega
        have hsink : st.w.sink = out ++ bitsBytes bs := by
          apply bytesBits_inj
          rw [← hb, e1, bytesBits_append, bytesBits_bitsBytes _ h8']
        refine ⟨bitsBytes bs, by rw [← h.2, hsink], ?_⟩
        have := bitsBytes_length _ h8'
        omega
    all_goals simp at h

end Mp4
