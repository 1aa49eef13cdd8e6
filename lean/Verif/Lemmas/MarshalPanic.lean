import Verif.Spec.Typed
import Verif.Lemmas.Total
import Verif.Lemmas.Marshal

/-!
# When `Marshal` does not panic
-/

namespace Mp4

open Spec

variable {σ : Type}

/-- The computation does not panic, and returns. -/
def NoPanic {τ α : Type} (m : M τ α) : Prop := ∀ s, (m s).1 ≠ .panic ∧ (m s).1 ≠ .hang

namespace NoPanic
variable {τ α β : Type}

theorem pure (a : α) : NoPanic (Pure.pure a : M τ α) := fun s => by simp
theorem fail (e : Err) : NoPanic (M.fail e : M τ α) := fun s => by simp
theorem bind {m : M τ α} {k : α → M τ β} (hm : NoPanic m) (hk : ∀ a, NoPanic (k a)) :
    NoPanic (m >>= k) := by
  intro s
  rw [M.bind_run]
  have := hm s
  cases h : m s with
  | mk r s1 =>
    rw [h] at this
    cases r with
    | ok a => exact hk a s1
    | err e => simp
    | panic => simp at this
    | hang => simp at this

theorem modify (f : τ → τ) : NoPanic (M.modify f) := fun s => by simp
theorem get : NoPanic (M.get : M τ τ) := fun s => by simp

theorem liftW {m : WM σ α} (hm : NoPanic m) : NoPanic (Mp4.liftW m) := by
  intro s
  exact hm s.w

theorem dropErr {m : MM σ Unit} (hm : NoPanic m) : NoPanic (Mp4.dropErr m) := by
  intro s
  have := hm s
  unfold Mp4.dropErr
  cases h : m s with
  | mk r s1 => rw [h] at this; cases r <;> simp_all

end NoPanic

theorem noPanic_addW (n : Nat) : NoPanic (addW n : MM σ Unit) := NoPanic.modify _

theorem noPanic_writeBit (k : Sink σ) (b : Bool) : NoPanic (writeBit k b) := by
  intro s
  unfold writeBit
  simp only
  split
  · split <;> simp
  · simp

theorem noPanic_writeBitsLoop (k : Sink σ) (d : Bytes) : ∀ n i, NoPanic (writeBitsLoop k d n i)
  | 0, _ => NoPanic.pure _
  | n + 1, i => by
    unfold writeBitsLoop
    exact NoPanic.bind (noPanic_writeBit k _) (fun _ => noPanic_writeBitsLoop k d n (i + 1))

theorem noPanic_writeBits (k : Sink σ) (d : Bytes) (w : Nat) : NoPanic (writeBits k d w) := by
  unfold writeBits
  split
  · exact noPanic_writeBitsLoop k d _ _
  · exact NoPanic.pure _

theorem noPanic_writeRaw (k : Sink σ) (d : Bytes) : NoPanic (writeRaw k d) := by
  intro s
  unfold writeRaw
  split
  · simp
  · split <;> simp

theorem noPanic_count {k : Sink σ} {d : Bytes} {w : Nat} {m : MM σ Unit} (hm : NoPanic m) :
    NoPanic (do liftW (writeBits k d w); addW w; m) :=
  NoPanic.bind (NoPanic.liftW (noPanic_writeBits k d w)) (fun _ => NoPanic.bind (noPanic_addW _) (fun _ => hm))

theorem noPanic_count1 {k : Sink σ} {d : Bytes} {w : Nat} :
    NoPanic (do liftW (writeBits k d w); addW w) :=
  NoPanic.bind (NoPanic.liftW (noPanic_writeBits k d w)) (fun _ => noPanic_addW _)

theorem noPanic_uintLoop (k : Sink σ) (size val : Nat) : ∀ n i, NoPanic (marshalUintLoop k size val n i)
  | 0, _ => NoPanic.pure _
  | n + 1, i => by
    simp only [marshalUintLoop]
    exact noPanic_count (noPanic_uintLoop k size val n (i + 8))

theorem noPanic_intLoop (k : Sink σ) (size val : Nat) (sg : Bool) :
    ∀ n i, NoPanic (marshalIntLoop k size val sg n i)
  | 0, _ => NoPanic.pure _
  | n + 1, i => by
    simp only [marshalIntLoop]
    exact noPanic_count (noPanic_intLoop k size val sg n (i + 8))

theorem noPanic_uvarint (k : Sink σ) (u : Nat) : NoPanic (writeUvarint k u) := by
  unfold writeUvarint
  exact noPanic_count (noPanic_count (noPanic_count noPanic_count1))

theorem noPanic_stringLoop (k : Sink σ) : ∀ b, NoPanic (marshalStringLoop k b)
  | [] => NoPanic.pure _
  | b :: bs => by
    simp only [marshalStringLoop]
    exact noPanic_count (noPanic_stringLoop k bs)

theorem noPanic_forElems {f : Val → MM σ Unit} : ∀ l, (∀ v ∈ l, NoPanic (f v)) → NoPanic (forElems f l)
  | [], _ => NoPanic.pure _
  | v :: vs, h => by
    simp only [forElems]
    exact NoPanic.bind (h v (by simp)) (fun _ => noPanic_forElems vs (fun x hx => h x (by simp [hx])))

theorem noPanic_elems {k : Sink σ} {isByte : Bool} {fi : Field} {f : Val → MM σ Unit} {l : List Val}
    (h : ∀ v ∈ l, NoPanic (f v)) : NoPanic (marshalElems k isByte fi f l) := by
  unfold marshalElems
  refine NoPanic.bind NoPanic.get (fun s => ?_)
  split
  · refine NoPanic.bind (NoPanic.liftW ?_) (fun _ => noPanic_addW _)
    unfold copyBytes
    split
    · exact NoPanic.pure _
    · exact noPanic_writeRaw k _
  · exact noPanic_forElems l (fun v hv => (h v hv).dropErr)

theorem noPanic_onWrite (h : Hook) (k : Sink σ) (n : String) (sv : SV) : NoPanic (onWrite h k n sv) := by
  have hz : ∀ b, NoPanic (writeStringZ k b) := fun b =>
    NoPanic.bind (noPanic_writeRaw k _) (fun _ => noPanic_writeRaw k _)
  cases h with
  | none => exact NoPanic.pure _
  | hdlr => exact NoPanic.pure _
  | avcc =>
    simp only [onWrite]
    split
    · split
      · exact NoPanic.fail _
      · exact NoPanic.pure _
    · exact NoPanic.pure _
  | emsg =>
    simp only [onWrite]
    split
    · exact NoPanic.pure _
    · split
      · exact NoPanic.pure _
      · split
        · exact NoPanic.bind (hz _) (fun _ => NoPanic.bind (hz _) (fun _ => NoPanic.pure _))
        · exact NoPanic.pure _

theorem typedFields_keys : ∀ (fs : Fields) (sv : SV), typedFields fs sv = true → sv.keys = fs.names
  | .nil, sv, h => by
    simp only [typedFields, List.isEmpty_iff] at h
    subst h; rfl
  | .cons f t fs, [], h => by simp [typedFields] at h
  | .cons f t fs, (n, v) :: rest, h => by
    simp only [typedFields] at h
    rw [Bool.and_eq_true, Bool.and_eq_true, beq_iff_eq] at h
    rw [Fields.names, ← typedFields_keys fs rest h.2, h.1.1]; rfl

/-- every field has a value of its type -/
def FieldsTyped (sv : SV) : Fields → Prop
  | .nil => True
  | .cons f t fs => (∃ v, sv.get f.name = some v ∧ typedV t v = true) ∧ FieldsTyped sv fs

theorem FieldsTyped.cons {n : String} {v : Val} {sv : SV} : ∀ {fs : Fields}, n ∉ fs.names →
    FieldsTyped sv fs → FieldsTyped ((n, v) :: sv) fs
  | .nil, _, _ => by simp [FieldsTyped]
  | .cons f t fs, hn, h => by
    simp only [FieldsTyped] at h ⊢
    simp only [Fields.names, List.mem_cons, not_or] at hn
    refine ⟨?_, FieldsTyped.cons hn.2 h.2⟩
    simp only [SV.get, if_neg hn.1]
    exact h.1

theorem fieldsTyped_of_typed : ∀ (fs : Fields) (sv : SV), fs.names.Nodup → typedFields fs sv = true →
    FieldsTyped sv fs
  | .nil, sv, _, h => by simp [FieldsTyped]
  | .cons f t fs, [], _, h => by simp [typedFields] at h
  | .cons f t fs, (n, v) :: rest, hnd, h => by
    simp only [typedFields] at h
    rw [Bool.and_eq_true, Bool.and_eq_true, beq_iff_eq] at h
    obtain ⟨⟨rfl, hv⟩, hr⟩ := h
    simp only [Fields.names, List.nodup_cons] at hnd
    simp only [FieldsTyped]
    exact ⟨⟨v, by simp [SV.get], hv⟩, FieldsTyped.cons hnd.1 (fieldsTyped_of_typed fs rest hnd.2 hr)⟩

mutual
/-- field names are different in every struct of the type -/
def Ty.nodup : Ty → Bool
  | .ptr t => t.nodup
  | .arr _ t => t.nodup
  | .slice t => t.nodup
  | .struct _ fs => fs.nodup
  | _ => true
/-- field names are different, here and below -/
def Fields.nodup : Fields → Bool
  | .nil => true
  | .cons f t fs => !fs.names.contains f.name && t.nodup && fs.nodup
end

theorem Fields.nodup_names : ∀ fs : Fields, fs.nodup = true → fs.names.Nodup
  | .nil, _ => by simp [Fields.names]
  | .cons f t fs, h => by
    simp only [Fields.nodup] at h
    rw [Bool.and_eq_true, Bool.and_eq_true] at h
    simp only [Fields.names, List.nodup_cons]
    exact ⟨by simpa using h.1.1, Fields.nodup_names fs h.2⟩

mutual
theorem noPanic_V (k : Sink σ) (e : Env) (ok : SV → Prop) (hroot : ok e.root) :
    ∀ (t : Ty) (fi : Field) (v : Val), t.Total e.cfo ok → t.nodup = true → typedV t v = true →
      noNilV e t fi v = true → NoPanic (marshalV ⟨k, e.ctx, e.root, e.cfo, e.hook⟩ t fi v)
  | .ptr t, fi, v, ht, hd, hty, hn => by
    simp only [Ty.Total] at ht
    simp only [Ty.nodup] at hd
    cases v <;> simp only [typedV] at hty <;> try contradiction
    case ptr o =>
      cases o with
      | none => simp [noNilV] at hn
      | some x =>
        simp only [noNilV] at hn
        simp only at hty
        simp only [marshalV]
        exact noPanic_V k e ok hroot t fi x ht hd hty hn
  | .struct c fs, fi, v, ht, hd, hty, hn => by
    simp only [Ty.Total] at ht
    simp only [Ty.nodup] at hd
    cases v <;> simp only [typedV] at hty <;> try contradiction
    case struct sv =>
      simp only [noNilV] at hn
      simp only [marshalV]
      exact noPanic_fields k e ok hroot false c fs sv ht hd
        (fieldsTyped_of_typed fs sv (Fields.nodup_names fs hd) hty) hn (by simp)
  | .arr _ t, fi, v, ht, hd, hty, hn => by
    simp only [Ty.Total] at ht
    simp only [Ty.nodup] at hd
    cases v <;> simp only [typedV] at hty <;> try contradiction
    case arr l =>
      rw [Bool.and_eq_true] at hty
      simp only [noNilV, List.all_eq_true] at hn
      have hty := List.all_eq_true.mp hty.2
      simp only [marshalV]
      exact noPanic_forElems l (fun x hx => noPanic_V k e ok hroot t fi x ht hd (hty x hx) (hn x hx))
  | .slice t, fi, v, ht, hd, hty, hn => by
    simp only [Ty.Total] at ht
    simp only [Ty.nodup] at hd
    cases v <;> simp only [typedV] at hty <;> try contradiction
    case slice l =>
      simp only [noNilV, List.all_eq_true] at hn
      have hty := List.all_eq_true.mp hty
      simp only [marshalV]
      split
      · exact NoPanic.fail _
      · refine noPanic_elems (fun x hx => ?_)
        have hx : x ∈ l := by
          split at hx
          · exact List.mem_of_mem_take hx
          · exact hx
        exact noPanic_V k e ok hroot t fi x ht hd (hty x hx) (hn x hx)
  | .int _, fi, v, ht, hd, hty, hn => by
    cases v <;> simp only [typedV] at hty <;> try contradiction
    simp only [marshalV]
    split
    · exact NoPanic.fail _
    · exact noPanic_intLoop k _ _ _ _ _
  | .uint _, fi, v, ht, hd, hty, hn => by
    cases v <;> simp only [typedV] at hty <;> try contradiction
    simp only [marshalV]
    split
    · exact (noPanic_uvarint k _).dropErr
    · exact noPanic_uintLoop k _ _ _ _
  | .bool, fi, v, ht, hd, hty, hn => by
    cases v <;> simp only [typedV] at hty <;> try contradiction
    simp only [marshalV]
    exact noPanic_count1
  | .str, fi, v, ht, hd, hty, hn => by
    cases v <;> simp only [typedV] at hty <;> try contradiction
    simp only [marshalV]
    refine NoPanic.bind (noPanic_stringLoop k _) (fun _ => ?_)
    split
    · exact NoPanic.pure _
    · exact noPanic_count1
theorem noPanic_fields (k : Sink σ) (e : Env) (ok : SV → Prop) (hroot : ok e.root) (top : Bool)
    (c : Option Cfo) :
    ∀ (fs : Fields) (sv : SV), fs.Total e.cfo ok top c → fs.nodup = true → FieldsTyped sv fs →
      noNilFields e c fs sv = true → (top = true → sv = e.root) →
      NoPanic (marshalFields ⟨k, e.ctx, e.root, e.cfo, e.hook⟩ top c fs sv)
  | .nil, sv, _, _, _, _, _ => by simp only [marshalFields]; exact NoPanic.pure _
  | .cons f t fs, sv, ht, hd, hty, hn, htop => by
    simp only [Fields.Total] at ht
    simp only [Fields.nodup] at hd
    rw [Bool.and_eq_true, Bool.and_eq_true] at hd
    simp only [FieldsTyped] at hty
    simp only [noNilFields] at hn
    rw [Bool.and_eq_true] at hn
    have hrec := noPanic_fields k e ok hroot top c fs sv ht.2.2 hd.2 hty.2 hn.2 htop
    simp only [marshalFields]
    have hcsv : top = true ∨ c = none → ok (if c.isSome = true then sv else e.root) := by
      intro h
      rcases h with h | h
      · rw [htop h]; split <;> exact hroot
      · subst h; exact hroot
    generalize (if c.isSome = true then sv else e.root) = csv at *
    have hans := ht.1 e.ctx csv hcsv
    have hres : resolve (c.getD e.cfo) e.ctx csv f = some (instField (c.getD e.cfo) e.ctx csv f) := by
      apply resolve_eq
      · cases h : f.sizeDyn with
        | false => simp
        | true => simp [hans.1 h]
      · cases h : f.lenDyn with
        | false => simp
        | true => simp [hans.2 h]
    rw [hres]
    simp only [isTarget_eq]
    generalize instField (c.getD e.cfo) e.ctx csv f = fi at *
    split
    · exact hrec
    · next hp =>
      have hp' : present (c.getD e.cfo) e.ctx e.root.version e.root.flags csv fi = true := by
        simpa using hp
      obtain ⟨v, hget, hv⟩ := hty.1
      rw [hget] at hn ⊢
      simp only [hp', Bool.not_true, Bool.false_or] at hn
      have hk : ∀ a : Nat × Bool, NoPanic (do
          addW a.1
          if a.2 = true then marshalFields ⟨k, e.ctx, e.root, e.cfo, e.hook⟩ top c fs sv
          else do
            marshalV ⟨k, e.ctx, e.root, e.cfo, e.hook⟩ t fi v
            marshalFields ⟨k, e.ctx, e.root, e.cfo, e.hook⟩ top c fs sv : MM σ Unit) := by
        intro a
        refine NoPanic.bind (noPanic_addW _) (fun _ => ?_)
        split
        · exact hrec
        · exact NoPanic.bind (noPanic_V k e ok hroot t fi v ht.2.1 hd.1.2 hv hn.1) (fun _ => hrec)
      cases top with
      | true =>
        simp only [if_true]
        exact NoPanic.bind (NoPanic.liftW (noPanic_onWrite _ _ _ _)) hk
      | false =>
        simp only [Bool.false_eq_true, if_false]
        exact NoPanic.bind (NoPanic.pure _) hk
end

mutual
/-- no pointers in the type -/
def Ty.noPtr : Ty → Bool
  | .ptr _ => false
  | .arr _ t => t.noPtr
  | .slice t => t.noPtr
  | .struct _ fs => fs.noPtr
  | _ => true
/-- no pointers in the fields -/
def Fields.noPtr : Fields → Bool
  | .nil => true
  | .cons _ t fs => t.noPtr && fs.noPtr
end

mutual
theorem noNilV_of_noPtr (e : Env) : ∀ (t : Ty) (fi : Field) (v : Val), t.noPtr = true → noNilV e t fi v = true
  | .ptr _, _, _, h => by simp [Ty.noPtr] at h
  | .struct c fs, fi, v, h => by
    simp only [Ty.noPtr] at h
    simp only [noNilV]
    split
    · exact noNilFields_of_noPtr e c fs _ h
    · rfl
  | .arr _ t, fi, v, h => by
    simp only [Ty.noPtr] at h
    simp only [noNilV]
    split
    · exact List.all_eq_true.mpr (fun x _ => noNilV_of_noPtr e t fi x h)
    · rfl
  | .slice t, fi, v, h => by
    simp only [Ty.noPtr] at h
    simp only [noNilV]
    split
    · exact List.all_eq_true.mpr (fun x _ => noNilV_of_noPtr e t fi x h)
    · rfl
  | .uint _, _, _, _ => by simp only [noNilV]
  | .int _, _, _, _ => by simp only [noNilV]
  | .bool, _, _, _ => by simp only [noNilV]
  | .str, _, _, _ => by simp only [noNilV]
theorem noNilFields_of_noPtr (e : Env) (c : Option Cfo) : ∀ (fs : Fields) (sv : SV), fs.noPtr = true →
    noNilFields e c fs sv = true
  | .nil, _, _ => by simp only [noNilFields]
  | .cons f t fs, sv, h => by
    simp only [Fields.noPtr] at h
    rw [Bool.and_eq_true] at h
    simp only [noNilFields]
    rw [Bool.and_eq_true]
    refine ⟨?_, noNilFields_of_noPtr e c fs sv h.2⟩
    rw [Bool.or_eq_true]
    right
    split
    · exact noNilV_of_noPtr e t _ _ h.1
    · rfl
end

theorem allDefs_nodup : ∀ bd ∈ Cat.allDefs, bd.fields.nodup = true := by
  have h : Cat.allDefs.all (fun bd => bd.fields.nodup) = true := by decide
  exact List.all_eq_true.mp h

theorem allDefs_noPtr : ∀ bd ∈ Cat.allDefs, bd.goName = "Esds" ∨ bd.fields.noPtr = true := by
  have h : Cat.allDefs.all (fun bd => bd.goName == "Esds" || bd.fields.noPtr) = true := by decide
  intro bd hbd
  have := List.all_eq_true.mp h bd hbd
  simpa using this

theorem marshalBox_noPanic {bd : BoxDef} (hbd : bd ∈ Cat.allDefs) (k : Sink σ) {ctx : Ctx} {sv : SV}
    (hty : typedFields bd.fields sv = true)
    (hver : bd.goName = "Elst" ∨ bd.goName = "Tfra" → sv.version = 0 ∨ sv.version = 1)
    (hn : noNilFields (env bd ctx sv) (some bd.cfo) bd.fields sv = true) (s : σ) :
    (marshalBox bd k ctx sv s).1 ≠ .panic ∧ (marshalBox bd k ctx sv s).1 ≠ .hang := by
  have hd := allDefs_nodup bd hbd
  have := noPanic_fields k (env bd ctx sv) _ hver true (some bd.cfo) bd.fields sv
    (allDefs_total bd hbd) hd (fieldsTyped_of_typed _ _ (Fields.nodup_names _ hd) hty) hn (fun _ => rfl)
    ⟨WSt.fresh s, 0⟩
  change (marshalFields (bd.menv k ctx sv) true (some bd.cfo) bd.fields sv _).1 ≠ _ ∧
    (marshalFields (bd.menv k ctx sv) true (some bd.cfo) bd.fields sv _).1 ≠ _ at this
  unfold marshalBox
  cases hr : marshalFields (bd.menv k ctx sv) true (some bd.cfo) bd.fields sv ⟨WSt.fresh s, 0⟩ with
  | mk r st =>
    rw [hr] at this
    cases r with
    | ok a => simp only; split <;> simp
    | err e => simp
    | panic => simp at this
    | hang => simp at this

end Mp4
