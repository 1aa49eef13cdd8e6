import Verif.Model.Marshal

/-!
# `Marshal` into different destinations

If two destinations answer related writes alike, `Marshal` behaves alike on them.
-/

namespace Mp4

variable {σ τ α β : Type}

/-- Related states give the same outcome and related states. -/
def Alike {A B : Type} (Q : A → B → Prop) (m : M A α) (n : M B α) : Prop :=
  ∀ a b, Q a b → (m a).1 = (n b).1 ∧ Q (m a).2 (n b).2

section
variable {A B : Type} {Q : A → B → Prop}

theorem Alike.pure (v : α) : Alike Q (Pure.pure v) (Pure.pure v) := fun _ _ h => ⟨rfl, h⟩
theorem Alike.panic : Alike Q (M.panic : M A α) (M.panic : M B α) := fun _ _ h => ⟨rfl, h⟩
theorem Alike.fail (e : Err) : Alike Q (M.fail e : M A α) (M.fail e : M B α) := fun _ _ h => ⟨rfl, h⟩

theorem Alike.bind {m : M A α} {n : M B α} {k : α → M A β} {l : α → M B β} (h : Alike Q m n)
    (hk : ∀ a, Alike Q (k a) (l a)) : Alike Q (m >>= k) (n >>= l) := by
  intro a b hab
  obtain ⟨h1, h2⟩ := h a b hab
  cases e1 : m a with
  | mk r a' =>
  cases e2 : n b with
  | mk r' b' =>
    rw [e1, e2] at h1 h2
    simp only at h1 h2
    subst h1
    match r, e1, e2 with
    | .ok v, e1, e2 => rw [M.bind_ok e1, M.bind_ok e2]; exact hk v a' b' h2
    | .err e, e1, e2 => rw [M.bind_err e1, M.bind_err e2]; exact ⟨rfl, h2⟩
    | .panic, e1, e2 => rw [M.bind_panic e1, M.bind_panic e2]; exact ⟨rfl, h2⟩
    | .hang, e1, e2 => rw [M.bind_hang e1, M.bind_hang e2]; exact ⟨rfl, h2⟩

end

/-- The destinations answer alike. -/
def AlikeSink (R : σ → τ → Prop) (k : Sink σ) (l : Sink τ) : Prop :=
  ∀ p s t, R s t → (k.write p s).1 = (l.write p t).1 ∧ R (k.write p s).2 (l.write p t).2

/-- related bit writers -/
def RelW (R : σ → τ → Prop) (s : WSt σ) (t : WSt τ) : Prop := R s.sink t.sink ∧ s.octet = t.octet ∧ s.width = t.width

/-- related marshallers -/
def RelM (R : σ → τ → Prop) (s : MSt σ) (t : MSt τ) : Prop := RelW R s.w t.w ∧ s.wbits = t.wbits

variable {R : σ → τ → Prop} {k : Sink σ} {l : Sink τ}

theorem alike_liftW {m : WM σ α} {n : WM τ α} (h : Alike (RelW R) m n) : Alike (RelM R) (liftW m) (liftW n) := by
  intro s t hst
  obtain ⟨h1, h2⟩ := h s.w t.w hst.1
  simp only [liftW]
  exact ⟨h1, h2, hst.2⟩

theorem alike_addW (n : Nat) : Alike (RelM R) (addW n) (addW n) := by
  intro s t hst
  refine ⟨rfl, hst.1, ?_⟩
  show s.wbits + n = t.wbits + n
  rw [hst.2]

theorem alike_dropErr {m : MM σ Unit} {n : MM τ Unit} (h : Alike (RelM R) m n) : Alike (RelM R) (dropErr m) (dropErr n) := by
  intro s t hst
  obtain ⟨h1, h2⟩ := h s t hst
  unfold dropErr
  cases e1 : m s with
  | mk r a' =>
  cases e2 : n t with
  | mk r' b' =>
    rw [e1, e2] at h1 h2
    simp only at h1 h2
    subst h1
    cases r <;> exact ⟨rfl, h2⟩

theorem alike_writeBit (hk : AlikeSink R k l) (bit : Bool) : Alike (RelW R) (writeBit k bit) (writeBit l bit) := by
  rintro ⟨s, o, w⟩ ⟨t, o', w'⟩ ⟨h1, h2, h3⟩
  simp only at h1 h2 h3
  subst h2 h3
  unfold writeBit
  simp only
  by_cases hw : w + 1 = 8
  · rw [if_pos hw, if_pos hw]
    obtain ⟨e1, e2⟩ := hk [if bit = true ∧ w ≤ 7 then o ||| 1#8 <<< (7 - w) else o] s t h1
    cases x1 : k.write [if bit = true ∧ w ≤ 7 then o ||| 1#8 <<< (7 - w) else o] s with
    | mk a s' =>
    cases x2 : l.write [if bit = true ∧ w ≤ 7 then o ||| 1#8 <<< (7 - w) else o] t with
    | mk b t' =>
      rw [x1, x2] at e1 e2
      simp only at e1 e2
      subst e1
      cases a <;> exact ⟨rfl, e2, rfl, rfl⟩
  · rw [if_neg hw, if_neg hw]
    exact ⟨rfl, h1, rfl, rfl⟩

theorem alike_writeBitsLoop (hk : AlikeSink R k l) (d : Bytes) : ∀ n i, Alike (RelW R) (writeBitsLoop k d n i) (writeBitsLoop l d n i)
  | 0, _ => Alike.pure _
  | n + 1, i => Alike.bind (alike_writeBit hk _) fun _ => alike_writeBitsLoop hk d n (i + 1)

theorem alike_writeBits (hk : AlikeSink R k l) (d : Bytes) (w : Nat) : Alike (RelW R) (writeBits k d w) (writeBits l d w) := by
  unfold writeBits
  split
  · exact alike_writeBitsLoop hk d _ _
  · exact Alike.pure _

theorem alike_writeRaw (hk : AlikeSink R k l) (p : Bytes) : Alike (RelW R) (writeRaw k p) (writeRaw l p) := by
  rintro ⟨s, o, w⟩ ⟨t, o', w'⟩ ⟨h1, h2, h3⟩
  simp only at h1 h2 h3
  subst h2 h3
  unfold writeRaw
  simp only
  by_cases hw : w ≠ 0
  · rw [if_pos hw, if_pos hw]
    exact ⟨rfl, h1, rfl, rfl⟩
  · rw [if_neg hw, if_neg hw]
    obtain ⟨e1, e2⟩ := hk p s t h1
    cases x1 : k.write p s with
    | mk a s' =>
    cases x2 : l.write p t with
    | mk b t' =>
      rw [x1, x2] at e1 e2
      simp only at e1 e2
      subst e1
      cases a <;> exact ⟨rfl, e2, rfl, rfl⟩

theorem alike_count (hk : AlikeSink R k l) (d : Bytes) (w n : Nat) :
    Alike (RelM R) (do liftW (writeBits k d w); addW n) (do liftW (writeBits l d w); addW n) :=
  Alike.bind (alike_liftW (alike_writeBits hk d w)) fun _ => alike_addW n

theorem alike_uintLoop (hk : AlikeSink R k l) (size val : Nat) :
    ∀ n i, Alike (RelM R) (marshalUintLoop k size val n i) (marshalUintLoop l size val n i)
  | 0, _ => Alike.pure _
  | n + 1, i => Alike.bind (alike_liftW (alike_writeBits hk _ _)) fun _ => Alike.bind (alike_addW _) fun _ =>
      alike_uintLoop hk size val n (i + 8)

theorem alike_intLoop (hk : AlikeSink R k l) (size val : Nat) (sg : Bool) :
    ∀ n i, Alike (RelM R) (marshalIntLoop k size val sg n i) (marshalIntLoop l size val sg n i)
  | 0, _ => Alike.pure _
  | n + 1, i => Alike.bind (alike_liftW (alike_writeBits hk _ _)) fun _ => Alike.bind (alike_addW _) fun _ =>
      alike_intLoop hk size val sg n (i + 8)

theorem alike_uvarint (hk : AlikeSink R k l) (u : Nat) : Alike (RelM R) (writeUvarint k u) (writeUvarint l u) := by
  unfold writeUvarint
  repeat' first
    | exact alike_addW _
    | exact alike_liftW (alike_writeBits hk _ _)
    | refine Alike.bind ?_ (fun _ => ?_)

theorem alike_stringLoop (hk : AlikeSink R k l) : ∀ b, Alike (RelM R) (marshalStringLoop k b) (marshalStringLoop l b)
  | [] => Alike.pure _
  | _ :: bs => Alike.bind (alike_liftW (alike_writeBits hk _ _)) fun _ => Alike.bind (alike_addW _) fun _ => alike_stringLoop hk bs

theorem alike_forElems {f : Val → MM σ Unit} {g : Val → MM τ Unit} (h : ∀ v, Alike (RelM R) (f v) (g v)) :
    ∀ vs, Alike (RelM R) (forElems f vs) (forElems g vs)
  | [] => Alike.pure _
  | v :: vs => Alike.bind (h v) fun _ => alike_forElems h vs

theorem alike_onWrite (hk : AlikeSink R k l) (h : Hook) (n : String) (sv : SV) :
    Alike (RelW R) (onWrite h k n sv) (onWrite h l n sv) := by
  have hz : ∀ b, Alike (RelW R) (writeStringZ k b) (writeStringZ l b) := fun b =>
    Alike.bind (alike_writeRaw hk _) fun _ => alike_writeRaw hk _
  cases h with
  | none => exact Alike.pure _
  | hdlr => exact Alike.pure _
  | avcc =>
    simp only [onWrite]
    split
    · split
      · exact Alike.fail _
      · exact Alike.pure _
    · exact Alike.pure _
  | emsg =>
    simp only [onWrite]
    split
    · exact Alike.pure _
    · split
      · exact Alike.pure _
      · split
        · exact Alike.bind (hz _) fun _ => Alike.bind (hz _) fun _ => Alike.pure _
        · exact Alike.pure _

theorem alike_copyBytes (hk : AlikeSink R k l) (b : Bytes) : Alike (RelW R) (copyBytes k b) (copyBytes l b) := by
  unfold copyBytes
  split
  · exact Alike.pure _
  · exact alike_writeRaw hk _

theorem alike_elems (hk : AlikeSink R k l) (isByte : Bool) (fi : Field) {f : Val → MM σ Unit} {g : Val → MM τ Unit}
    (h : ∀ v, Alike (RelM R) (f v) (g v)) (vs : List Val) :
    Alike (RelM R) (marshalElems k isByte fi f vs) (marshalElems l isByte fi g vs) := by
  intro s t hst
  have e1 : marshalElems k isByte fi f vs s =
      (if isByte ∧ fi.size = 8 ∧ s.wbits % 8 = 0 then do
        liftW (copyBytes k (valBytes vs))
        addW (vs.length * 8)
      else forElems (fun x => dropErr (f x)) vs) s := rfl
  have e2 : marshalElems l isByte fi g vs t =
      (if isByte ∧ fi.size = 8 ∧ t.wbits % 8 = 0 then do
        liftW (copyBytes l (valBytes vs))
        addW (vs.length * 8)
      else forElems (fun x => dropErr (g x)) vs) t := rfl
  rw [e1, e2, hst.2]
  by_cases hc : isByte ∧ fi.size = 8 ∧ t.wbits % 8 = 0
  · rw [if_pos hc, if_pos hc]
    exact Alike.bind (alike_liftW (alike_copyBytes hk _)) (fun _ => alike_addW _) s t hst
  · rw [if_neg hc, if_neg hc]
    exact alike_forElems (fun v => alike_dropErr (h v)) vs s t hst

mutual
theorem alike_V (hk : AlikeSink R k l) (ctx : Ctx) (root : SV) (cfo : Cfo) (hook : Hook) : ∀ (t : Ty) (fi : Field) (v : Val),
    Alike (RelM R) (marshalV ⟨k, ctx, root, cfo, hook⟩ t fi v) (marshalV ⟨l, ctx, root, cfo, hook⟩ t fi v)
  | .ptr t, fi, v => by
    cases v <;> simp only [marshalV] <;> try exact Alike.panic
    case ptr o =>
      cases o with
      | none => exact Alike.panic
      | some x => exact alike_V hk ctx root cfo hook t fi x
  | .struct c fs, fi, v => by
    cases v <;> simp only [marshalV] <;> try exact Alike.panic
    exact alike_fields hk ctx root cfo hook false c fs _
  | .arr _ t, fi, v => by
    cases v <;> simp only [marshalV] <;> try exact Alike.panic
    exact alike_forElems (fun x => alike_V hk ctx root cfo hook t fi x) _
  | .slice t, fi, v => by
    cases v <;> simp only [marshalV] <;> try exact Alike.panic
    split
    · exact Alike.fail _
    · exact alike_elems hk _ _ (fun x => alike_V hk ctx root cfo hook t fi x) _
  | .int _, fi, v => by
    cases v <;> simp only [marshalV] <;> try exact Alike.panic
    split
    · exact Alike.fail _
    · exact alike_intLoop hk _ _ _ _ _
  | .uint _, fi, v => by
    cases v <;> simp only [marshalV] <;> try exact Alike.panic
    split
    · exact alike_dropErr (alike_uvarint hk _)
    · exact alike_uintLoop hk _ _ _ _
  | .bool, fi, v => by
    cases v <;> simp only [marshalV] <;> try exact Alike.panic
    exact alike_count hk _ _ _
  | .str, fi, v => by
    cases v <;> simp only [marshalV] <;> try exact Alike.panic
    refine Alike.bind (alike_stringLoop hk _) (fun _ => ?_)
    split
    · exact Alike.pure _
    · exact alike_count hk _ _ _
theorem alike_fields (hk : AlikeSink R k l) (ctx : Ctx) (root : SV) (cfo : Cfo) (hook : Hook) (top : Bool) (c : Option Cfo) :
    ∀ (fs : Fields) (sv : SV),
      Alike (RelM R) (marshalFields ⟨k, ctx, root, cfo, hook⟩ top c fs sv) (marshalFields ⟨l, ctx, root, cfo, hook⟩ top c fs sv)
  | .nil, sv => by simp only [marshalFields]; exact Alike.pure _
  | .cons f t fs, sv => by
    simp only [marshalFields]
    have hrec := alike_fields hk ctx root cfo hook top c fs sv
    generalize (if c.isSome = true then sv else root) = csv
    split
    · exact Alike.panic
    · next fi hres =>
      split
      · exact hrec
      · have hb : ∀ a : Nat × Bool, Alike (RelM R) (do
            addW a.1
            if a.2 = true then marshalFields ⟨k, ctx, root, cfo, hook⟩ top c fs sv
            else match sv.get f.name with
              | none => M.panic
              | some v => do
                marshalV ⟨k, ctx, root, cfo, hook⟩ t fi v
                marshalFields ⟨k, ctx, root, cfo, hook⟩ top c fs sv) (do
            addW a.1
            if a.2 = true then marshalFields ⟨l, ctx, root, cfo, hook⟩ top c fs sv
            else match sv.get f.name with
              | none => M.panic
              | some v => do
                marshalV ⟨l, ctx, root, cfo, hook⟩ t fi v
                marshalFields ⟨l, ctx, root, cfo, hook⟩ top c fs sv) := by
          intro a
          refine Alike.bind (alike_addW _) (fun _ => ?_)
          split
          · exact hrec
          · split
            · exact Alike.panic
            · exact Alike.bind (alike_V hk ctx root cfo hook t fi _) (fun _ => hrec)
        cases top with
        | true =>
          simp only [if_true]
          exact Alike.bind (alike_liftW (alike_onWrite hk _ _ _)) hb
        | false =>
          simp only [Bool.false_eq_true, if_false]
          exact Alike.bind (Alike.pure _) hb
end

/-- `Marshal` on two destinations that answer alike. -/
theorem alike_box (hk : AlikeSink R k l) (bd : BoxDef) (ctx : Ctx) (sv : SV) {s : σ} {t : τ} (h : R s t) :
    (marshalBox bd k ctx sv s).1 = (marshalBox bd l ctx sv t).1 ∧
    R (marshalBox bd k ctx sv s).2 (marshalBox bd l ctx sv t).2 := by
  have hf := alike_fields hk ctx sv bd.cfo bd.hook true (some bd.cfo) bd.fields sv ⟨WSt.fresh s, 0⟩ ⟨WSt.fresh t, 0⟩
    ⟨⟨h, rfl, rfl⟩, rfl⟩
  unfold marshalBox
  simp only [BoxDef.menv]
  cases x1 : marshalFields ⟨k, ctx, sv, bd.cfo, bd.hook⟩ true (some bd.cfo) bd.fields sv ⟨WSt.fresh s, 0⟩ with
  | mk r s' =>
  cases x2 : marshalFields ⟨l, ctx, sv, bd.cfo, bd.hook⟩ true (some bd.cfo) bd.fields sv ⟨WSt.fresh t, 0⟩ with
  | mk r' t' =>
    rw [x1, x2] at hf
    obtain ⟨e1, ⟨e2, _, _⟩, e3⟩ := hf
    simp only at e1 e2 e3
    subst e1
    cases r with
    | ok _ =>
      simp only [e3]
      split <;> exact ⟨rfl, e2⟩
    | err _ => exact ⟨rfl, e2⟩
    | panic => exact ⟨rfl, e2⟩
    | hang => exact ⟨rfl, e2⟩

/-- What `Marshal` appends does not depend on what is there. -/
theorem marshalBox_append (bd : BoxDef) (ctx : Ctx) (sv : SV) (out : Bytes) : marshalBox bd memSink ctx sv out =
    ((marshalBox bd memSink ctx sv []).1, out ++ (marshalBox bd memSink ctx sv []).2) := by
  have := alike_box (R := fun s t : Bytes => s = out ++ t) (k := memSink) (l := memSink)
    (fun p s t h => ⟨rfl, by simp only [memSink]; rw [h, List.append_assoc]⟩) bd ctx sv (s := out) (t := []) (by simp)
  exact Prod.ext this.1 this.2

end Mp4
