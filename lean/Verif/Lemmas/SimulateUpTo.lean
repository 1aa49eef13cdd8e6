import Verif.Lemmas.Simulate

/-!
# `Marshal` into different destinations, up to the first difference

Two destinations answer alike until something happens (`Bad`) that the first one remembers.  If it has not happened at the end, `Marshal` has behaved alike.
-/

namespace Mp4

variable {σ τ α β : Type}

/-- Unless it ends badly, related states give the same outcome and related states; and what is bad stays bad. -/
def Up {A B : Type} (Q : A → B → Prop) (Bad : A → Prop) (m : M A α) (n : M B α) : Prop :=
  (∀ a b, Q a b → Bad (m a).2 ∨ ((m a).1 = (n b).1 ∧ Q (m a).2 (n b).2)) ∧ ∀ a, Bad a → Bad (m a).2

section
variable {A B : Type} {Q : A → B → Prop} {Bad : A → Prop}

theorem Up.pure (v : α) : Up Q Bad (Pure.pure v) (Pure.pure v) := ⟨fun _ _ h => .inr ⟨rfl, h⟩, fun _ h => h⟩
theorem Up.panic : Up Q Bad (M.panic : M A α) (M.panic : M B α) := ⟨fun _ _ h => .inr ⟨rfl, h⟩, fun _ h => h⟩
theorem Up.fail (e : Err) : Up Q Bad (M.fail e : M A α) (M.fail e : M B α) := ⟨fun _ _ h => .inr ⟨rfl, h⟩, fun _ h => h⟩

private theorem bind_bad {m : M A α} {k : α → M A β} (hk : ∀ x a, Bad a → Bad (k x a).2) (a : A)
    (h : Bad (m a).2) : Bad ((m >>= k) a).2 := by
  cases e1 : m a with
  | mk r a' =>
    rw [e1] at h
    cases r with
    | ok v => rw [M.bind_ok e1]; exact hk v a' h
    | err e => rw [M.bind_err e1]; exact h
    | panic => rw [M.bind_panic e1]; exact h
    | hang => rw [M.bind_hang e1]; exact h

theorem Up.bind {m : M A α} {n : M B α} {k : α → M A β} {l : α → M B β} (h : Up Q Bad m n)
    (hk : ∀ a, Up Q Bad (k a) (l a)) : Up Q Bad (m >>= k) (n >>= l) := by
  refine ⟨fun a b hab => ?_, fun a ha => bind_bad (fun x => (hk x).2) a (h.2 a ha)⟩
  rcases h.1 a b hab with hb | ⟨h1, h2⟩
  · exact .inl (bind_bad (fun x => (hk x).2) a hb)
  cases e1 : m a with
  | mk r a' =>
  cases e2 : n b with
  | mk r' b' =>
    rw [e1, e2] at h1 h2
    simp only at h1 h2
    subst h1
    match r, e1, e2 with
    | .ok v, e1, e2 => rw [M.bind_ok e1, M.bind_ok e2]; exact (hk v).1 a' b' h2
    | .err e, e1, e2 => rw [M.bind_err e1, M.bind_err e2]; exact .inr ⟨rfl, h2⟩
    | .panic, e1, e2 => rw [M.bind_panic e1, M.bind_panic e2]; exact .inr ⟨rfl, h2⟩
    | .hang, e1, e2 => rw [M.bind_hang e1, M.bind_hang e2]; exact .inr ⟨rfl, h2⟩

end

/-- The destinations answer alike until something bad happens to the first. -/
def UpSink (R : σ → τ → Prop) (Bad : σ → Prop) (k : Sink σ) (l : Sink τ) : Prop :=
  (∀ p s t, R s t → Bad (k.write p s).2 ∨ ((k.write p s).1 = (l.write p t).1 ∧ R (k.write p s).2 (l.write p t).2)) ∧
  ∀ p s, Bad s → Bad (k.write p s).2

def BadW (Bad : σ → Prop) (s : WSt σ) : Prop := Bad s.sink
def BadM (Bad : σ → Prop) (s : MSt σ) : Prop := Bad s.w.sink

variable {R : σ → τ → Prop} {Bad : σ → Prop} {k : Sink σ} {l : Sink τ}

theorem up_liftW {m : WM σ α} {n : WM τ α} (h : Up (RelW R) (BadW Bad) m n) : Up (RelM R) (BadM Bad) (liftW m) (liftW n) := by
  refine ⟨fun s t hst => ?_, fun s hs => h.2 s.w hs⟩
  rcases h.1 s.w t.w hst.1 with hb | ⟨h1, h2⟩
  · exact .inl hb
  · simp only [liftW]
    exact .inr ⟨h1, h2, hst.2⟩

theorem up_addW (n : Nat) : Up (RelM R) (BadM Bad) (addW n) (addW n) := by
  refine ⟨fun s t hst => .inr ⟨rfl, hst.1, ?_⟩, fun s hs => hs⟩
  show s.wbits + n = t.wbits + n
  rw [hst.2]

theorem up_dropErr {m : MM σ Unit} {n : MM τ Unit} (h : Up (RelM R) (BadM Bad) m n) : Up (RelM R) (BadM Bad) (dropErr m) (dropErr n) := by
  have e : ∀ s, (dropErr m s).2 = (m s).2 := by
    intro s
    unfold dropErr
    cases m s with
    | mk r a => cases r <;> rfl
  refine ⟨fun s t hst => ?_, fun s hs => by rw [e]; exact h.2 s hs⟩
  rcases h.1 s t hst with hb | ⟨h1, h2⟩
  · exact .inl (by rw [e]; exact hb)
  refine .inr ?_
  unfold dropErr
  cases e1 : m s with
  | mk r a' =>
  cases e2 : n t with
  | mk r' b' =>
    rw [e1, e2] at h1 h2
    simp only at h1 h2
    subst h1
    cases r <;> exact ⟨rfl, h2⟩

theorem up_writeBit (hk : UpSink R Bad k l) (bit : Bool) : Up (RelW R) (BadW Bad) (writeBit k bit) (writeBit l bit) := by
  constructor
  · rintro ⟨s, o, w⟩ ⟨t, o', w'⟩ ⟨h1, h2, h3⟩
    simp only at h1 h2 h3
    subst h2 h3
    unfold writeBit BadW
    simp only
    by_cases hw : w + 1 = 8
    · rw [if_pos hw, if_pos hw]
      have := hk.1 [if bit = true ∧ w ≤ 7 then o ||| 1#8 <<< (7 - w) else o] s t h1
      cases x1 : k.write [if bit = true ∧ w ≤ 7 then o ||| 1#8 <<< (7 - w) else o] s with
      | mk a s' =>
      cases x2 : l.write [if bit = true ∧ w ≤ 7 then o ||| 1#8 <<< (7 - w) else o] t with
      | mk b t' =>
        rw [x1, x2] at this
        rcases this with hb | ⟨e1, e2⟩
        · cases a <;> exact .inl hb
        · simp only at e1 e2
          subst e1
          cases a <;> exact .inr ⟨rfl, e2, rfl, rfl⟩
    · rw [if_neg hw, if_neg hw]
      exact .inr ⟨rfl, h1, rfl, rfl⟩
  · rintro ⟨s, o, w⟩ hs
    unfold writeBit BadW
    simp only
    by_cases hw : w + 1 = 8
    · rw [if_pos hw]
      have := hk.2 [if bit = true ∧ w ≤ 7 then o ||| 1#8 <<< (7 - w) else o] s hs
      cases x1 : k.write [if bit = true ∧ w ≤ 7 then o ||| 1#8 <<< (7 - w) else o] s with
      | mk a s' =>
        rw [x1] at this
        cases a <;> exact this
    · rw [if_neg hw]
      exact hs

theorem up_writeBitsLoop (hk : UpSink R Bad k l) (d : Bytes) : ∀ n i, Up (RelW R) (BadW Bad) (writeBitsLoop k d n i) (writeBitsLoop l d n i)
  | 0, _ => Up.pure _
  | n + 1, i => Up.bind (up_writeBit hk _) fun _ => up_writeBitsLoop hk d n (i + 1)

theorem up_writeBits (hk : UpSink R Bad k l) (d : Bytes) (w : Nat) : Up (RelW R) (BadW Bad) (writeBits k d w) (writeBits l d w) := by
  unfold writeBits
  split
  · exact up_writeBitsLoop hk d _ _
  · exact Up.pure _

theorem up_writeRaw (hk : UpSink R Bad k l) (p : Bytes) : Up (RelW R) (BadW Bad) (writeRaw k p) (writeRaw l p) := by
  constructor
  · rintro ⟨s, o, w⟩ ⟨t, o', w'⟩ ⟨h1, h2, h3⟩
    simp only at h1 h2 h3
    subst h2 h3
    unfold writeRaw BadW
    simp only
    by_cases hw : w ≠ 0
    · rw [if_pos hw, if_pos hw]
      exact .inr ⟨rfl, h1, rfl, rfl⟩
    · rw [if_neg hw, if_neg hw]
      have := hk.1 p s t h1
      cases x1 : k.write p s with
      | mk a s' =>
      cases x2 : l.write p t with
      | mk b t' =>
        rw [x1, x2] at this
        rcases this with hb | ⟨e1, e2⟩
        · cases a <;> exact .inl hb
        · simp only at e1 e2
          subst e1
          cases a <;> exact .inr ⟨rfl, e2, rfl, rfl⟩
  · rintro ⟨s, o, w⟩ hs
    unfold writeRaw BadW
    simp only
    by_cases hw : w ≠ 0
    · rw [if_pos hw]
      exact hs
    · rw [if_neg hw]
      have := hk.2 p s hs
      cases x1 : k.write p s with
      | mk a s' =>
        rw [x1] at this
        cases a <;> exact this

theorem up_count (hk : UpSink R Bad k l) (d : Bytes) (w n : Nat) :
    Up (RelM R) (BadM Bad) (do liftW (writeBits k d w); addW n) (do liftW (writeBits l d w); addW n) :=
  Up.bind (up_liftW (up_writeBits hk d w)) fun _ => up_addW n

theorem up_uintLoop (hk : UpSink R Bad k l) (size val : Nat) :
    ∀ n i, Up (RelM R) (BadM Bad) (marshalUintLoop k size val n i) (marshalUintLoop l size val n i)
  | 0, _ => Up.pure _
  | n + 1, i => Up.bind (up_liftW (up_writeBits hk _ _)) fun _ => Up.bind (up_addW _) fun _ =>
      up_uintLoop hk size val n (i + 8)

theorem up_intLoop (hk : UpSink R Bad k l) (size val : Nat) (sg : Bool) :
    ∀ n i, Up (RelM R) (BadM Bad) (marshalIntLoop k size val sg n i) (marshalIntLoop l size val sg n i)
  | 0, _ => Up.pure _
  | n + 1, i => Up.bind (up_liftW (up_writeBits hk _ _)) fun _ => Up.bind (up_addW _) fun _ =>
      up_intLoop hk size val sg n (i + 8)

theorem up_uvarint (hk : UpSink R Bad k l) (u : Nat) : Up (RelM R) (BadM Bad) (writeUvarint k u) (writeUvarint l u) := by
  unfold writeUvarint
  repeat' first
    | exact up_addW _
    | exact up_liftW (up_writeBits hk _ _)
    | refine Up.bind ?_ (fun _ => ?_)

theorem up_stringLoop (hk : UpSink R Bad k l) : ∀ b, Up (RelM R) (BadM Bad) (marshalStringLoop k b) (marshalStringLoop l b)
  | [] => Up.pure _
  | _ :: bs => Up.bind (up_liftW (up_writeBits hk _ _)) fun _ => Up.bind (up_addW _) fun _ => up_stringLoop hk bs

theorem up_forElems {f : Val → MM σ Unit} {g : Val → MM τ Unit} (h : ∀ v, Up (RelM R) (BadM Bad) (f v) (g v)) :
    ∀ vs, Up (RelM R) (BadM Bad) (forElems f vs) (forElems g vs)
  | [] => Up.pure _
  | v :: vs => Up.bind (h v) fun _ => up_forElems h vs

theorem up_onWrite (hk : UpSink R Bad k l) (h : Hook) (n : String) (sv : SV) :
    Up (RelW R) (BadW Bad) (onWrite h k n sv) (onWrite h l n sv) := by
  have hz : ∀ b, Up (RelW R) (BadW Bad) (writeStringZ k b) (writeStringZ l b) := fun b =>
    Up.bind (up_writeRaw hk _) fun _ => up_writeRaw hk _
  cases h with
  | none => exact Up.pure _
  | hdlr => exact Up.pure _
  | avcc =>
    simp only [onWrite]
    split
    · split
      · exact Up.fail _
      · exact Up.pure _
    · exact Up.pure _
  | emsg =>
    simp only [onWrite]
    split
    · exact Up.pure _
    · split
      · exact Up.pure _
      · split
        · exact Up.bind (hz _) fun _ => Up.bind (hz _) fun _ => Up.pure _
        · exact Up.pure _

theorem up_copyBytes (hk : UpSink R Bad k l) (b : Bytes) : Up (RelW R) (BadW Bad) (copyBytes k b) (copyBytes l b) := by
  unfold copyBytes
  split
  · exact Up.pure _
  · exact up_writeRaw hk _

theorem up_elems (hk : UpSink R Bad k l) (isByte : Bool) (fi : Field) {f : Val → MM σ Unit} {g : Val → MM τ Unit}
    (h : ∀ v, Up (RelM R) (BadM Bad) (f v) (g v)) (vs : List Val) :
    Up (RelM R) (BadM Bad) (marshalElems k isByte fi f vs) (marshalElems l isByte fi g vs) := by
  have h1 : Up (RelM R) (BadM Bad) (do liftW (copyBytes k (valBytes vs)); addW (vs.length * 8))
      (do liftW (copyBytes l (valBytes vs)); addW (vs.length * 8)) :=
    Up.bind (up_liftW (up_copyBytes hk _)) (fun _ => up_addW _)
  have h2 := up_forElems (fun v => up_dropErr (h v)) vs
  have e1 : ∀ s, marshalElems k isByte fi f vs s =
      (if isByte ∧ fi.size = 8 ∧ s.wbits % 8 = 0 then do
        liftW (copyBytes k (valBytes vs))
        addW (vs.length * 8)
      else forElems (fun x => dropErr (f x)) vs) s := fun _ => rfl
  have e2 : ∀ t, marshalElems l isByte fi g vs t =
      (if isByte ∧ fi.size = 8 ∧ t.wbits % 8 = 0 then do
        liftW (copyBytes l (valBytes vs))
        addW (vs.length * 8)
      else forElems (fun x => dropErr (g x)) vs) t := fun _ => rfl
  refine ⟨fun s t hst => ?_, fun s hs => ?_⟩
  · rw [e1, e2, hst.2]
    by_cases hc : isByte ∧ fi.size = 8 ∧ t.wbits % 8 = 0
    · rw [if_pos hc, if_pos hc]
      exact h1.1 s t hst
    · rw [if_neg hc, if_neg hc]
      exact h2.1 s t hst
  · rw [e1]
    split
    · exact h1.2 s hs
    · exact h2.2 s hs

mutual
theorem up_V (hk : UpSink R Bad k l) (ctx : Ctx) (root : SV) (cfo : Cfo) (hook : Hook) : ∀ (t : Ty) (fi : Field) (v : Val),
    Up (RelM R) (BadM Bad) (marshalV ⟨k, ctx, root, cfo, hook⟩ t fi v) (marshalV ⟨l, ctx, root, cfo, hook⟩ t fi v)
  | .ptr t, fi, v => by
    cases v <;> simp only [marshalV] <;> try exact Up.panic
    case ptr o =>
      cases o with
      | none => exact Up.panic
      | some x => exact up_V hk ctx root cfo hook t fi x
  | .struct c fs, fi, v => by
    cases v <;> simp only [marshalV] <;> try exact Up.panic
    exact up_fields hk ctx root cfo hook false c fs _
  | .arr _ t, fi, v => by
    cases v <;> simp only [marshalV] <;> try exact Up.panic
    exact up_forElems (fun x => up_V hk ctx root cfo hook t fi x) _
  | .slice t, fi, v => by
    cases v <;> simp only [marshalV] <;> try exact Up.panic
    split
    · exact Up.fail _
    · exact up_elems hk _ _ (fun x => up_V hk ctx root cfo hook t fi x) _
  | .int _, fi, v => by
    cases v <;> simp only [marshalV] <;> try exact Up.panic
    split
    · exact Up.fail _
    · exact up_intLoop hk _ _ _ _ _
  | .uint _, fi, v => by
    cases v <;> simp only [marshalV] <;> try exact Up.panic
    split
    · exact up_dropErr (up_uvarint hk _)
    · exact up_uintLoop hk _ _ _ _
  | .bool, fi, v => by
    cases v <;> simp only [marshalV] <;> try exact Up.panic
    exact up_count hk _ _ _
  | .str, fi, v => by
    cases v <;> simp only [marshalV] <;> try exact Up.panic
    refine Up.bind (up_stringLoop hk _) (fun _ => ?_)
    split
    · exact Up.pure _
    · exact up_count hk _ _ _
theorem up_fields (hk : UpSink R Bad k l) (ctx : Ctx) (root : SV) (cfo : Cfo) (hook : Hook) (top : Bool) (c : Option Cfo) :
    ∀ (fs : Fields) (sv : SV),
      Up (RelM R) (BadM Bad) (marshalFields ⟨k, ctx, root, cfo, hook⟩ top c fs sv) (marshalFields ⟨l, ctx, root, cfo, hook⟩ top c fs sv)
  | .nil, sv => by simp only [marshalFields]; exact Up.pure _
  | .cons f t fs, sv => by
    simp only [marshalFields]
    have hrec := up_fields hk ctx root cfo hook top c fs sv
    generalize (if c.isSome = true then sv else root) = csv
    split
    · exact Up.panic
    · next fi hres =>
      split
      · exact hrec
      · have hb : ∀ a : Nat × Bool, Up (RelM R) (BadM Bad) (do
            addW a.1
            if a.2 = true then marshalFields ⟨k, ctx, root, cfo, hook⟩ top c fs sv
            else match sv.get f.name with
              | none => M.panic
              | some v => do
                marshalV ⟨k, ctx, root, cfo, hook⟩ t fi v
                marshalFields ⟨k, ctx, root, cfo, hook⟩ top c fs sv) (do
            addW a.1
            if a.2 = true then marshalFields ⟨l, ctx, root, cfo, hook⟩ top c fs sv
            else match sv.get f.name with
              | none => M.panic
              | some v => do
                marshalV ⟨l, ctx, root, cfo, hook⟩ t fi v
                marshalFields ⟨l, ctx, root, cfo, hook⟩ top c fs sv) := by
          intro a
          refine Up.bind (up_addW _) (fun _ => ?_)
          split
          · exact hrec
          · split
            · exact Up.panic
            · exact Up.bind (up_V hk ctx root cfo hook t fi _) (fun _ => hrec)
        cases top with
        | true =>
          simp only [if_true]
          exact Up.bind (up_liftW (up_onWrite hk _ _ _)) hb
        | false =>
          simp only [Bool.false_eq_true, if_false]
          exact Up.bind (Up.pure _) hb
end

/-- `Marshal` on two destinations that answer alike. -/
theorem up_box (hk : UpSink R Bad k l) (bd : BoxDef) (ctx : Ctx) (sv : SV) {s : σ} {t : τ} (h : R s t) :
    Bad (marshalBox bd k ctx sv s).2 ∨ ((marshalBox bd k ctx sv s).1 = (marshalBox bd l ctx sv t).1 ∧
    R (marshalBox bd k ctx sv s).2 (marshalBox bd l ctx sv t).2) := by
  have hf := (up_fields hk ctx sv bd.cfo bd.hook true (some bd.cfo) bd.fields sv).1 ⟨WSt.fresh s, 0⟩ ⟨WSt.fresh t, 0⟩
    ⟨⟨h, rfl, rfl⟩, rfl⟩
  unfold marshalBox
  simp only [BoxDef.menv]
  cases x1 : marshalFields ⟨k, ctx, sv, bd.cfo, bd.hook⟩ true (some bd.cfo) bd.fields sv ⟨WSt.fresh s, 0⟩ with
  | mk r s' =>
  cases x2 : marshalFields ⟨l, ctx, sv, bd.cfo, bd.hook⟩ true (some bd.cfo) bd.fields sv ⟨WSt.fresh t, 0⟩ with
  | mk r' t' =>
    rw [x1, x2] at hf
    rcases hf with hf | ⟨e1, ⟨e2, _, _⟩, e3⟩
    · refine .inl ?_
      have hf : Bad s'.w.sink := hf
      cases r with
      | ok _ => simp only; split <;> exact hf
      | err _ => exact hf
      | panic => exact hf
      | hang => exact hf
    refine .inr ?_
    simp only at e1 e2 e3
    subst e1
    cases r with
    | ok _ =>
      simp only [e3]
      split <;> exact ⟨rfl, e2⟩
    | err _ => exact ⟨rfl, e2⟩
    | panic => exact ⟨rfl, e2⟩
    | hang => exact ⟨rfl, e2⟩

end Mp4
