import Verif.Spec.Watch
import Verif.Lemmas.MarshalPanic
import Verif.Lemmas.Counts

/-!
# Errors that `Marshal` reports
-/

namespace Mp4

open Spec

variable {σ : Type}

/-- fields with their types, as a list -/
def Fields.toList : Fields → List (Field × Ty)
  | .nil => []
  | .cons f t fs => (f, t) :: fs.toList

/-! ## lists that are too short -/

theorem onWrite_no_override {h : Hook} {k : Sink σ} {n : String} {sv : SV}
    (hn : n ≠ "SchemeIdUri" ∧ n ≠ "Value" ∧ n ≠ "HighProfileFieldsEnabled") {w w' : WSt σ} {a : Nat × Bool}
    (hr : onWrite h k n sv w = (.ok a, w')) : a.2 = false := by
  have hp : ∀ (b : Nat) (w w' : WSt σ), (Pure.pure (b, false) : WM σ (Nat × Bool)) w = (.ok a, w') → a.2 = false := by
    intro b w w' h
    simp only [M.pure_run, Prod.mk.injEq, Out.ok.injEq] at h
    rw [← h.1]
  cases h with
  | none => exact hp _ _ _ hr
  | hdlr => exact hp _ _ _ hr
  | avcc =>
    simp only [onWrite, hn.2.2, if_false] at hr
    exact hp _ _ _ hr
  | emsg =>
    simp only [onWrite, hn.1, hn.2.1, or_self, if_false] at hr
    split at hr
    · exact hp _ _ _ hr
    · split at hr
      · rw [M.bind_run] at hr
        cases h1 : writeStringZ k (sv.str "SchemeIdUri") w with
        | mk r w1 =>
          rw [h1] at hr
          cases r with
          | ok u =>
            simp only at hr
            rw [M.bind_run] at hr
            cases h2 : writeStringZ k (sv.str "Value") w1 with
            | mk r w2 =>
              rw [h2] at hr
              cases r with
              | ok u => exact hp _ _ _ hr
              | err e => simp at hr
              | panic => simp at hr
              | hang => simp at hr
          | err e => simp at hr
          | panic => simp at hr
          | hang => simp at hr
      · exact hp _ _ _ hr

/-- what a successful sequence implies about its first part -/
theorem bind_ok_inv {τ α β : Type} {m : M τ α} {k : α → M τ β} {s s' : τ} {b : β}
    (h : (m >>= k) s = (.ok b, s')) : ∃ a s1, m s = (.ok a, s1) ∧ k a s1 = (.ok b, s') := by
  rw [M.bind_run] at h
  cases h1 : m s with
  | mk r s1 =>
    rw [h1] at h
    cases r with
    | ok a => exact ⟨a, s1, rfl, h⟩
    | err e => simp at h
    | panic => simp at h
    | hang => simp at h

theorem marshalFields_slices {e : MEnv σ} {cf : Cfo} : ∀ (fs : Fields) (sv : SV) (s s' : MSt σ),
    marshalFields e true (some cf) fs sv s = (.ok (), s') →
    ∀ f t, (f, Ty.slice t) ∈ fs.toList →
      f.name ≠ "SchemeIdUri" ∧ f.name ≠ "Value" ∧ f.name ≠ "HighProfileFieldsEnabled" →
      present cf e.ctx e.root.version e.root.flags sv (instField cf e.ctx sv f) = true →
      ∀ l, sv.get f.name = some (.slice l) →
        (instField cf e.ctx sv f).length = lengthUnlimited ∨ (instField cf e.ctx sv f).length ≤ l.length
  | .nil, sv, s, s', _, f, t, hm, _, _, l, _ => by simp [Fields.toList] at hm
  | .cons f0 t0 fs, sv, s, s', h, f, t, hm, hn, hp, l, hg => by
    simp only [marshalFields, Option.getD_some, Option.isSome_some, if_true] at h
    cases hres : resolve cf e.ctx sv f0 with
    | none => rw [hres] at h; simp at h
    | some fi =>
      rw [hres] at h
      simp only at h
      have hin : fi = instField cf e.ctx sv f0 := by
        unfold resolve at hres
        unfold instField
        cases hsd : f0.sizeDyn <;> cases hld : f0.lenDyn <;>
          simp only [hsd, hld, Bool.false_eq_true, if_false, if_true, Option.bind_eq_bind, Option.bind_some,
            Option.some.injEq] at hres ⊢
        · rw [← hres]
        · cases hc : cf.length f0.name e.ctx sv <;> rw [hc] at hres <;> simp at hres
          rw [← hres]; rfl
        · cases hc : cf.size f0.name e.ctx sv <;> rw [hc] at hres <;> simp at hres
          rw [← hres]; rfl
        · cases hc : cf.size f0.name e.ctx sv <;> rw [hc] at hres <;> simp at hres
          cases hc' : cf.length f0.name e.ctx sv <;> rw [hc'] at hres <;> simp at hres
          rw [← hres]; rfl
      subst hin
      rw [isTarget_eq] at h
      simp only [Fields.toList, List.mem_cons, Prod.mk.injEq] at hm
      split at h
      · next hnp =>
        rcases hm with ⟨rfl, rfl⟩ | hm
        · exact absurd hp hnp
        · exact marshalFields_slices fs sv s s' h f t hm hn hp l hg
      · obtain ⟨a, s1, h1, h⟩ := bind_ok_inv h
        obtain ⟨_, s2, h2, h⟩ := bind_ok_inv h
        split at h
        · next hov =>
          rcases hm with ⟨rfl, rfl⟩ | hm
          · exfalso
            unfold liftW at h1
            cases ho : onWrite e.hook e.sink f.name sv s.w with
            | mk r w' =>
              rw [ho] at h1
              simp only [Prod.mk.injEq] at h1
              rw [h1.1] at ho
              rw [onWrite_no_override hn ho] at hov
              simp at hov
          · exact marshalFields_slices fs sv _ s' h f t hm hn hp l hg
        · cases hv : sv.get f0.name with
          | none => rw [hv] at h; simp at h
          | some v =>
            rw [hv] at h
            simp only at h
            obtain ⟨_, s3, h3, h⟩ := bind_ok_inv h
            rcases hm with ⟨rfl, rfl⟩ | hm
            · rw [hg] at hv
              simp only [Option.some.injEq] at hv
              subst hv
              simp only [marshalV] at h3
              split at h3
              · simp at h3
              · next hh =>
                by_cases hu : (instField cf e.ctx sv f).length = lengthUnlimited
                · exact Or.inl hu
                · exact Or.inr (by
                    have : ¬ l.length < (instField cf e.ctx sv f).length := fun hlt => hh ⟨hu, hlt⟩
                    omega)
            · exact marshalFields_slices fs sv _ s' h f t hm hn hp l hg

/-- is it a slice type? -/
def Ty.isSlice : Ty → Bool
  | .slice _ => true
  | _ => false

theorem allDefs_sliceNames : ∀ bd ∈ Cat.allDefs, ∀ f t, (f, Ty.slice t) ∈ bd.fields.toList →
    f.name ≠ "SchemeIdUri" ∧ f.name ≠ "Value" ∧ f.name ≠ "HighProfileFieldsEnabled" := by
  have h : Cat.allDefs.all (fun bd => bd.fields.toList.all (fun x =>
      !x.2.isSlice || (x.1.name != "SchemeIdUri" && x.1.name != "Value" &&
        x.1.name != "HighProfileFieldsEnabled"))) = true := by decide
  intro bd hbd f t hm
  have := List.all_eq_true.mp (List.all_eq_true.mp h bd hbd) _ hm
  simp only [Ty.isSlice, Bool.not_true, Bool.false_or, Bool.and_eq_true, bne_iff_ne] at this
  exact ⟨this.1.1, this.1.2, this.2⟩

theorem marshalBox_slices {bd : BoxDef} (hbd : bd ∈ Cat.allDefs) {k : Sink σ} {ctx : Ctx} {sv : SV} {s s' : σ}
    {n : Nat} (h : marshalBox bd k ctx sv s = (.ok n, s')) {f : Field} {t : Ty}
    (hm : (f, Ty.slice t) ∈ bd.fields.toList)
    (hp : present bd.cfo ctx sv.version sv.flags sv (instField bd.cfo ctx sv f) = true)
    {l : List Val} (hg : sv.get f.name = some (.slice l)) :
    (instField bd.cfo ctx sv f).length = lengthUnlimited ∨ (instField bd.cfo ctx sv f).length ≤ l.length := by
  unfold marshalBox at h
  cases hr : marshalFields (bd.menv k ctx sv) true (some bd.cfo) bd.fields sv ⟨WSt.fresh s, 0⟩ with
  | mk r st =>
    rw [hr] at h
    cases r with
    | ok a =>
      exact marshalFields_slices (e := bd.menv k ctx sv) bd.fields sv _ _ hr f t hm
        (allDefs_sliceNames bd hbd f t hm) hp l hg
    | err e => simp at h
    | panic => simp at h
    | hang => simp at h

/-! ## failing destinations -/

/-- Success means that no further write has failed. -/
def Honest {τ α : Type} (flag : τ → Bool) (m : M τ α) : Prop :=
  ∀ s a s', m s = (.ok a, s') → flag s' = flag s

namespace Honest
variable {τ α β : Type} {flag : τ → Bool}

theorem unchanged {m : M τ α} (h : ∀ s, flag (m s).2 = flag s) : Honest flag m := by
  intro s a s' he
  have := h s
  rw [he] at this
  exact this

theorem pure (a : α) : Honest flag (Pure.pure a : M τ α) := unchanged (fun _ => rfl)
theorem fail (e : Err) : Honest flag (M.fail e : M τ α) := unchanged (fun _ => rfl)
theorem panic : Honest flag (M.panic : M τ α) := unchanged (fun _ => rfl)
theorem get : Honest flag (M.get : M τ τ) := unchanged (fun _ => rfl)
theorem bind {m : M τ α} {k : α → M τ β} (hm : Honest flag m) (hk : ∀ a, Honest flag (k a)) :
    Honest flag (m >>= k) := by
  intro s b s' h
  obtain ⟨a, s1, h1, h2⟩ := bind_ok_inv h
  rw [hk a s1 b s' h2, hm s a s1 h1]
end Honest

/-- failures seen by a watched destination, in the states of the bit writer … -/
def wfail (s : WSt (σ × Bool)) : Bool := s.sink.2
/-- … and of the marshaller -/
def mfail (s : MSt (σ × Bool)) : Bool := s.w.sink.2

theorem honest_liftW {α : Type} {m : WM (σ × Bool) α} (h : Honest wfail m) : Honest mfail (liftW m) := by
  intro s a s' he
  unfold liftW at he
  cases hm : m s.w with
  | mk r w' =>
    rw [hm] at he
    simp only [Prod.mk.injEq] at he
    rw [he.1] at hm
    rw [← he.2]
    exact h _ _ _ hm

theorem honest_addW (n : Nat) : Honest mfail (addW n : MM (σ × Bool) Unit) :=
  Honest.unchanged (fun _ => rfl)

theorem honest_writeBit (k : Sink σ) (b : Bool) : Honest wfail (writeBit (watch k) b) := by
  intro s a s' h
  unfold writeBit at h
  simp only at h
  split at h
  · simp only [watch] at h
    cases hk : k.write [if (b = true ∧ s.width ≤ 7) then s.octet ||| 1#8 <<< (7 - s.width) else s.octet] s.sink.1 with
    | mk o t =>
      rw [hk] at h
      cases o
      · simp at h
      · simp only [Prod.mk.injEq] at h
        rw [← h.2]; rfl
  · simp only [Prod.mk.injEq] at h
    rw [← h.2]; rfl

theorem honest_writeBitsLoop (k : Sink σ) (d : Bytes) : ∀ n i, Honest wfail (writeBitsLoop (watch k) d n i)
  | 0, _ => Honest.pure _
  | n + 1, i => by
    unfold writeBitsLoop
    exact Honest.bind (honest_writeBit k _) (fun _ => honest_writeBitsLoop k d n (i + 1))

theorem honest_writeBits (k : Sink σ) (d : Bytes) (w : Nat) : Honest wfail (writeBits (watch k) d w) := by
  unfold writeBits
  split
  · exact honest_writeBitsLoop k d _ _
  · exact Honest.pure _

theorem honest_writeRaw (k : Sink σ) (d : Bytes) : Honest wfail (writeRaw (watch k) d) := by
  intro s a s' h
  unfold writeRaw at h
  split at h
  · simp at h
  · simp only [watch] at h
    cases hk : k.write d s.sink.1 with
    | mk o t =>
      rw [hk] at h
      cases o
      · simp at h
      · simp only [Prod.mk.injEq] at h
        rw [← h.2]; rfl

theorem honest_count {k : Sink σ} {d : Bytes} {w : Nat} {m : MM (σ × Bool) Unit} (hm : Honest mfail m) :
    Honest mfail (do liftW (writeBits (watch k) d w); addW w; m) :=
  Honest.bind (honest_liftW (honest_writeBits k d w)) (fun _ => Honest.bind (honest_addW _) (fun _ => hm))

theorem honest_count1 {k : Sink σ} {d : Bytes} {w : Nat} :
    Honest mfail (do liftW (writeBits (watch k) d w); addW w) :=
  Honest.bind (honest_liftW (honest_writeBits k d w)) (fun _ => honest_addW _)

theorem honest_uintLoop (k : Sink σ) (size val : Nat) : ∀ n i, Honest mfail (marshalUintLoop (watch k) size val n i)
  | 0, _ => Honest.pure _
  | n + 1, i => by
    simp only [marshalUintLoop]
    exact honest_count (honest_uintLoop k size val n (i + 8))

theorem honest_intLoop (k : Sink σ) (size val : Nat) (sg : Bool) :
    ∀ n i, Honest mfail (marshalIntLoop (watch k) size val sg n i)
  | 0, _ => Honest.pure _
  | n + 1, i => by
    simp only [marshalIntLoop]
    exact honest_count (honest_intLoop k size val sg n (i + 8))

theorem honest_stringLoop (k : Sink σ) : ∀ b, Honest mfail (marshalStringLoop (watch k) b)
  | [] => Honest.pure _
  | b :: bs => by
    simp only [marshalStringLoop]
    exact honest_count (honest_stringLoop k bs)

theorem honest_forElems {f : Val → MM (σ × Bool) Unit} (h : ∀ v, Honest mfail (f v)) :
    ∀ l, Honest mfail (forElems f l)
  | [] => Honest.pure _
  | v :: vs => by
    simp only [forElems]
    exact Honest.bind (h v) (fun _ => honest_forElems h vs)

theorem honest_onWrite (h : Hook) (k : Sink σ) (n : String) (sv : SV) :
    Honest wfail (onWrite h (watch k) n sv) := by
  have hz : ∀ b, Honest wfail (writeStringZ (watch k) b) := fun b =>
    Honest.bind (honest_writeRaw k _) (fun _ => honest_writeRaw k _)
  cases h with
  | none => exact Honest.pure _
  | hdlr => exact Honest.pure _
  | avcc =>
    simp only [onWrite]
    split
    · split
      · exact Honest.fail _
      · exact Honest.pure _
    · exact Honest.pure _
  | emsg =>
    simp only [onWrite]
    split
    · exact Honest.pure _
    · split
      · exact Honest.pure _
      · split
        · exact Honest.bind (hz _) (fun _ => Honest.bind (hz _) (fun _ => Honest.pure _))
        · exact Honest.pure _

mutual
/-- The type contains no lists and (together with the fields) no variable-length integers. -/
def Ty.noList : Ty → Bool
  | .ptr t => t.noList
  | .arr _ t => t.noList
  | .slice _ => false
  | .struct _ fs => fs.noList
  | _ => true
/-- no lists and no variable-length integers -/
def Fields.noList : Fields → Bool
  | .nil => true
  | .cons f t fs => !f.varint && t.noList && fs.noList
end

theorem resolve_varint {c : Cfo} {ctx : Ctx} {csv : SV} {f fi : Field}
    (hr : resolve c ctx csv f = some fi) : fi.varint = f.varint := by
  unfold resolve at hr
  cases hsd : f.sizeDyn <;> cases hld : f.lenDyn <;>
    simp only [hsd, hld, Bool.false_eq_true, if_false, if_true, Option.bind_eq_bind, Option.bind_some,
      Option.some.injEq] at hr
  · rw [← hr]
  · cases hc : c.length f.name ctx csv <;> rw [hc] at hr <;> simp at hr
    rw [← hr]
  · cases hc : c.size f.name ctx csv <;> rw [hc] at hr <;> simp at hr
    rw [← hr]
  · cases hc : c.size f.name ctx csv <;> rw [hc] at hr <;> simp at hr
    cases hc' : c.length f.name ctx csv <;> rw [hc'] at hr <;> simp at hr
    rw [← hr]

mutual
theorem honest_V (e : MEnv (σ × Bool)) (k : Sink σ) (he : e.sink = watch k) :
    ∀ (t : Ty) (fi : Field) (v : Val), t.noList = true → fi.varint = false → Honest mfail (marshalV e t fi v)
  | .ptr t, fi, v, ht, hv => by
    simp only [Ty.noList] at ht
    cases v <;> simp only [marshalV] <;> try exact Honest.panic
    case ptr o =>
      cases o with
      | none => exact Honest.panic
      | some x => exact honest_V e k he t fi x ht hv
  | .struct c fs, fi, v, ht, hv => by
    simp only [Ty.noList] at ht
    cases v <;> simp only [marshalV] <;> try exact Honest.panic
    exact honest_fields e k he false c fs _ ht
  | .arr _ t, fi, v, ht, hv => by
    simp only [Ty.noList] at ht
    cases v <;> simp only [marshalV] <;> try exact Honest.panic
    exact honest_forElems (fun x => honest_V e k he t fi x ht hv) _
  | .slice t, fi, v, ht, hv => by simp [Ty.noList] at ht
  | .int _, fi, v, ht, hv => by
    cases v <;> simp only [marshalV] <;> try exact Honest.panic
    rw [hv, he]
    exact honest_intLoop k _ _ _ _ _
  | .uint _, fi, v, ht, hv => by
    cases v <;> simp only [marshalV] <;> try exact Honest.panic
    rw [hv, he]
    exact honest_uintLoop k _ _ _ _
  | .bool, fi, v, ht, hv => by
    cases v <;> simp only [marshalV] <;> try exact Honest.panic
    rw [he]
    exact honest_count1
  | .str, fi, v, ht, hv => by
    cases v <;> simp only [marshalV] <;> try exact Honest.panic
    rw [he]
    refine Honest.bind (honest_stringLoop k _) (fun _ => ?_)
    split
    · exact Honest.pure _
    · exact honest_count1
theorem honest_fields (e : MEnv (σ × Bool)) (k : Sink σ) (he : e.sink = watch k) (top : Bool) (c : Option Cfo) :
    ∀ (fs : Fields) (sv : SV), fs.noList = true → Honest mfail (marshalFields e top c fs sv)
  | .nil, sv, ht => by simp only [marshalFields]; exact Honest.pure _
  | .cons f t fs, sv, ht => by
    simp only [Fields.noList] at ht
    rw [Bool.and_eq_true, Bool.and_eq_true] at ht
    simp only [marshalFields]
    have hrec := honest_fields e k he top c fs sv ht.2
    generalize (if c.isSome = true then sv else e.root) = csv
    split
    · exact Honest.panic
    · next fi hres =>
      have hvar : fi.varint = false := by rw [resolve_varint hres]; simpa using ht.1.1
      split
      · exact hrec
      · have hk : ∀ a : Nat × Bool, Honest mfail (do
            addW a.1
            if a.2 = true then marshalFields e top c fs sv
            else match sv.get f.name with
              | none => M.panic
              | some v => do marshalV e t fi v; marshalFields e top c fs sv) := by
          intro a
          refine Honest.bind (honest_addW _) (fun _ => ?_)
          split
          · exact hrec
          · split
            · exact Honest.panic
            · exact Honest.bind (honest_V e k he t fi _ ht.1.2 hvar) (fun _ => hrec)
        cases top with
        | true =>
          simp only [if_true]
          rw [he]
          exact Honest.bind (honest_liftW (honest_onWrite _ k _ _)) hk
        | false =>
          simp only [Bool.false_eq_true, if_false]
          exact Honest.bind (Honest.pure _) hk
end

/-! ### with lists of bytes

A list of bytes that begins at a multiple of 8 bits is written without dropping errors. -/

/-- `n` steps -/
def iterAlign (g : Nat → Option Nat) : Nat → Nat → Option Nat
  | 0, a => some a
  | n + 1, a => (g a).bind (iterAlign g n)

/-- not subject to a condition -/
def Field.uncond (f : Field) : Bool :=
  f.version == anyVersion && f.nVersion == anyVersion && f.optFlag == 0 && f.nOptFlag == 0 && !f.optDyn

mutual
/-- The number of bits (modulo 8) after a value that is written at `a`, if it can be told and no error can be
dropped. -/
def Ty.alignV (fi : Field) : Ty → Nat → Option Nat
  | .ptr t, a => t.alignV fi a
  | .arr n t, a => iterAlign (fun x => t.alignV fi x) n a
  | .slice t, a => if t.isByte && fi.size == 8 && a == 0 then some 0 else none
  | .struct _ fs, a => fs.alignF a
  | .uint _, a => some ((a + fi.size) % 8)
  | .int _, a => some ((a + fi.size) % 8)
  | .bool, a => some ((a + fi.size) % 8)
  | .str, a => some a
/-- the same for fields -/
def Fields.alignF : Fields → Nat → Option Nat
  | .nil, a => some a
  | .cons f t fs, a =>
    if f.sizeDyn || f.varint then none
    else
      match t.alignV f a with
      | none => none
      | some b =>
        if b == a || (f.uncond && f.name != "SchemeIdUri" && f.name != "Value" &&
          f.name != "HighProfileFieldsEnabled") then fs.alignF b else none
end

/-- Beginning at `a`, success means that no write has failed and that the end is at `b`. -/
def HonestA {α : Type} (a b : Nat) (m : MM (σ × Bool) α) : Prop :=
  ∀ s x s', s.wbits % 8 = a → m s = (.ok x, s') → mfail s' = mfail s ∧ s'.wbits % 8 = b

namespace HonestA
variable {α β : Type} {a b c : Nat}

theorem pure (x : α) : HonestA a a (Pure.pure x : MM (σ × Bool) α) := by
  intro s y s' ha h
  simp only [M.pure_run, Prod.mk.injEq] at h
  rw [← h.2]
  exact ⟨rfl, ha⟩
theorem panic : HonestA a b (M.panic : MM (σ × Bool) α) := by
  intro s y s' ha h
  simp [M.panic] at h
theorem fail (e : Err) : HonestA a b (M.fail e : MM (σ × Bool) α) := by
  intro s y s' ha h
  simp [M.fail] at h
theorem bind {m : MM (σ × Bool) α} {k : α → MM (σ × Bool) β} (hm : HonestA a b m)
    (hk : ∀ x, HonestA b c (k x)) : HonestA a c (m >>= k) := by
  intro s y s' ha h
  obtain ⟨x, s1, h1, h2⟩ := bind_ok_inv h
  obtain ⟨e1, b1⟩ := hm s x s1 ha h1
  obtain ⟨e2, b2⟩ := hk x s1 y s' b1 h2
  exact ⟨e2.trans e1, b2⟩
/-- like `bind`, remembering the result of the first part -/
theorem bind' {m : MM (σ × Bool) α} {k : α → MM (σ × Bool) β} (P : α → Prop) (hP : ∀ s x s', m s = (.ok x, s') → P x)
    (hm : HonestA a b m) (hk : ∀ x, P x → HonestA b c (k x)) : HonestA a c (m >>= k) := by
  intro s y s' ha h
  obtain ⟨x, s1, h1, h2⟩ := bind_ok_inv h
  obtain ⟨e1, b1⟩ := hm s x s1 ha h1
  obtain ⟨e2, b2⟩ := hk x (hP _ _ _ h1) s1 y s' b1 h2
  exact ⟨e2.trans e1, b2⟩
end HonestA

theorem honestA_liftW {α : Type} {m : WM (σ × Bool) α} (h : Honest wfail m) (a : Nat) : HonestA a a (liftW m) := by
  intro s x s' ha he
  refine ⟨honest_liftW h s x s' he, ?_⟩
  unfold liftW at he
  cases hm : m s.w with
  | mk r w' =>
    rw [hm] at he
    simp only [Prod.mk.injEq] at he
    rw [← he.2]
    exact ha

theorem honestA_addW (a n : Nat) : HonestA a ((a + n) % 8) (addW n : MM (σ × Bool) Unit) := by
  intro s x s' ha h
  simp only [addW, M.modify, Prod.mk.injEq] at h
  rw [← h.2]
  refine ⟨rfl, ?_⟩
  simp only
  omega

theorem honestA_addW8 (a n : Nat) : HonestA a a (addW (n * 8) : MM (σ × Bool) Unit) := by
  intro s x s' ha h
  simp only [addW, M.modify, Prod.mk.injEq] at h
  rw [← h.2]
  refine ⟨rfl, ?_⟩
  simp only
  omega

theorem honestA_uintLoop (k : Sink σ) (size val : Nat) : ∀ n i a, i ≤ size → n = (size - i + 7) / 8 →
    a < 8 → HonestA a ((a + (size - i)) % 8) (marshalUintLoop (watch k) size val n i)
  | 0, i, a, hi, hn, ha => by
    have : (a + (size - i)) % 8 = a := by omega
    rw [this]
    exact HonestA.pure _
  | n + 1, i, a, hi, hn, ha => by
    simp only [marshalUintLoop, intChunk]
    refine HonestA.bind (honestA_liftW (honest_writeBits k _ _) a) (fun _ => HonestA.bind (honestA_addW a _) (fun _ => ?_))
    by_cases hlt : size < i + 8
    · rw [if_pos hlt]
      have hn0 : n = 0 := by omega
      subst hn0
      simp only [marshalUintLoop]
      exact HonestA.pure _
    · rw [if_neg hlt]
      have := honestA_uintLoop k size val n (i + 8) ((a + 8) % 8) (by omega) (by omega) (by omega)
      have e : ((a + 8) % 8 + (size - (i + 8))) % 8 = (a + (size - i)) % 8 := by omega
      rw [e] at this
      exact this

theorem honestA_intLoop (k : Sink σ) (size val : Nat) (sg : Bool) : ∀ n i a, i ≤ size → n = (size - i + 7) / 8 →
    a < 8 → HonestA a ((a + (size - i)) % 8) (marshalIntLoop (watch k) size val sg n i)
  | 0, i, a, hi, hn, ha => by
    have : (a + (size - i)) % 8 = a := by omega
    rw [this]
    exact HonestA.pure _
  | n + 1, i, a, hi, hn, ha => by
    simp only [marshalIntLoop, intChunk]
    refine HonestA.bind (honestA_liftW (honest_writeBits k _ _) a) (fun _ => HonestA.bind (honestA_addW a _) (fun _ => ?_))
    by_cases hlt : size < i + 8
    · rw [if_pos hlt]
      have hn0 : n = 0 := by omega
      subst hn0
      simp only [marshalIntLoop]
      exact HonestA.pure _
    · rw [if_neg hlt]
      have := honestA_intLoop k size val sg n (i + 8) ((a + 8) % 8) (by omega) (by omega) (by omega)
      have e : ((a + 8) % 8 + (size - (i + 8))) % 8 = (a + (size - i)) % 8 := by omega
      rw [e] at this
      exact this

theorem honestA_stringLoop (k : Sink σ) (a : Nat) : ∀ b, HonestA a a (marshalStringLoop (watch k) b)
  | [] => HonestA.pure _
  | b :: bs => by
    simp only [marshalStringLoop]
    exact HonestA.bind (honestA_liftW (honest_writeBits k _ _) a) (fun _ =>
      HonestA.bind (honestA_addW8 a 1) (fun _ => honestA_stringLoop k a bs))

theorem honest_copyBytes (k : Sink σ) (b : Bytes) : Honest wfail (copyBytes (watch k) b) := by
  unfold copyBytes
  split
  · exact Honest.pure _
  · exact honest_writeRaw k b

theorem honestA_forElems {f : Val → MM (σ × Bool) Unit} {g : Nat → Option Nat} (hg8 : ∀ x y, x < 8 → g x = some y → y < 8)
    (P : Val → Prop) (h : ∀ v a b, P v → a < 8 → g a = some b → HonestA a b (f v)) :
    ∀ l a b, (∀ v ∈ l, P v) → a < 8 → iterAlign g l.length a = some b → HonestA a b (forElems f l)
  | [], a, b, _, _, hi => by
    simp only [List.length_nil, iterAlign, Option.some.injEq] at hi
    subst hi
    exact HonestA.pure _
  | v :: vs, a, b, hp, ha, hi => by
    simp only [List.length_cons, iterAlign] at hi
    rw [Option.bind_eq_some_iff] at hi
    obtain ⟨c, hc, hi⟩ := hi
    simp only [forElems]
    exact HonestA.bind (h v a c (hp v (by simp)) ha hc) (fun _ =>
      honestA_forElems hg8 P h vs c b (fun x hx => hp x (by simp [hx])) (hg8 _ _ ha hc) hi)

theorem iterAlign_lt {g : Nat → Option Nat} (hg8 : ∀ x y, x < 8 → g x = some y → y < 8) :
    ∀ n a b, a < 8 → iterAlign g n a = some b → b < 8
  | 0, a, b, ha, h => by simp only [iterAlign, Option.some.injEq] at h; omega
  | n + 1, a, b, ha, h => by
    simp only [iterAlign] at h
    rw [Option.bind_eq_some_iff] at h
    obtain ⟨c, hc, h⟩ := h
    exact iterAlign_lt hg8 n c b (hg8 _ _ ha hc) h

mutual
theorem alignV_lt (fi : Field) : ∀ (t : Ty) (a b : Nat), a < 8 → t.alignV fi a = some b → b < 8
  | .ptr t, a, b, ha, h => by simp only [Ty.alignV] at h; exact alignV_lt fi t a b ha h
  | .arr n t, a, b, ha, h => by
    simp only [Ty.alignV] at h
    exact iterAlign_lt (fun x y hx hy => alignV_lt fi t x y hx hy) n a b ha h
  | .slice t, a, b, ha, h => by
    simp only [Ty.alignV] at h
    split at h <;> simp at h
    omega
  | .struct _ fs, a, b, ha, h => by simp only [Ty.alignV] at h; exact alignF_lt fs a b ha h
  | .uint _, a, b, ha, h => by simp only [Ty.alignV, Option.some.injEq] at h; omega
  | .int _, a, b, ha, h => by simp only [Ty.alignV, Option.some.injEq] at h; omega
  | .bool, a, b, ha, h => by simp only [Ty.alignV, Option.some.injEq] at h; omega
  | .str, a, b, ha, h => by simp only [Ty.alignV, Option.some.injEq] at h; omega
theorem alignF_lt : ∀ (fs : Fields) (a b : Nat), a < 8 → fs.alignF a = some b → b < 8
  | .nil, a, b, ha, h => by simp only [Fields.alignF, Option.some.injEq] at h; omega
  | .cons f t fs, a, b, ha, h => by
    simp only [Fields.alignF] at h
    split at h
    · simp at h
    · cases hv : t.alignV f a with
      | none => rw [hv] at h; simp at h
      | some c =>
        rw [hv] at h
        simp only at h
        split at h
        · exact alignF_lt fs c b (alignV_lt f t a c ha hv) h
        · simp at h
end

theorem onWrite_wbits {h : Hook} {k : Sink σ} {n : String} {sv : SV} {w w' : WSt σ} {a : Nat × Bool}
    (hr : onWrite h k n sv w = (.ok a, w')) : a.1 % 8 = 0 ∧
      (a.2 = true → n = "SchemeIdUri" ∨ n = "Value" ∨ n = "HighProfileFieldsEnabled") := by
  constructor
  · have hp : ∀ (b : Nat) (o : Bool) (w w' : WSt σ), b % 8 = 0 →
        (Pure.pure (b, o) : WM σ (Nat × Bool)) w = (.ok a, w') → a.1 % 8 = 0 := by
      intro b o w w' hb h
      simp only [M.pure_run, Prod.mk.injEq, Out.ok.injEq] at h
      rw [← h.1]; exact hb
    cases h with
    | none => exact hp _ _ _ _ rfl hr
    | hdlr => exact hp _ _ _ _ rfl hr
    | avcc =>
      simp only [onWrite] at hr
      split at hr
      · split at hr
        · simp [M.fail] at hr
        · exact hp _ _ _ _ rfl hr
      · exact hp _ _ _ _ rfl hr
    | emsg =>
      simp only [onWrite] at hr
      split at hr
      · exact hp _ _ _ _ rfl hr
      · split at hr
        · exact hp _ _ _ _ rfl hr
        · split at hr
          · obtain ⟨_, w1, h1, hr⟩ := bind_ok_inv hr
            obtain ⟨_, w2, h2, hr⟩ := bind_ok_inv hr
            exact hp _ _ _ _ (by omega) hr
          · exact hp _ _ _ _ rfl hr
  · intro ha
    by_cases h1 : n = "SchemeIdUri"
    · exact Or.inl h1
    · by_cases h2 : n = "Value"
      · exact Or.inr (Or.inl h2)
      · by_cases h3 : n = "HighProfileFieldsEnabled"
        · exact Or.inr (Or.inr h3)
        · rw [onWrite_no_override ⟨h1, h2, h3⟩ hr] at ha
          simp at ha

theorem uncond_target {c : Cfo} {ctx : Ctx} {root csv : SV} {cf : Cfo} {f fi : Field}
    (hres : resolve cf ctx csv f = some fi) (h : f.uncond = true) : isTarget c ctx root csv fi = true := by
  have hd : fi.version = f.version ∧ fi.nVersion = f.nVersion ∧ fi.optFlag = f.optFlag ∧
      fi.nOptFlag = f.nOptFlag ∧ fi.optDyn = f.optDyn := by
    unfold resolve at hres
    cases hsd : f.sizeDyn <;> cases hld : f.lenDyn <;>
      simp only [hsd, hld, Bool.false_eq_true, if_false, if_true, Option.bind_eq_bind, Option.bind_some,
        Option.some.injEq] at hres
    · rw [← hres]; simp
    · cases hc : cf.length f.name ctx csv <;> rw [hc] at hres <;> simp at hres
      rw [← hres]; simp
    · cases hc : cf.size f.name ctx csv <;> rw [hc] at hres <;> simp at hres
      rw [← hres]; simp
    · cases hc : cf.size f.name ctx csv <;> rw [hc] at hres <;> simp at hres
      cases hc' : cf.length f.name ctx csv <;> rw [hc'] at hres <;> simp at hres
      rw [← hres]; simp
  unfold Field.uncond at h
  simp only [Bool.and_eq_true, beq_iff_eq, Bool.not_eq_true'] at h
  unfold isTarget
  rw [hd.1, hd.2.1, hd.2.2.1, hd.2.2.2.1, hd.2.2.2.2, h.1.1.1.1, h.1.1.1.2, h.1.1.2, h.1.2, h.2]
  simp

mutual
theorem alignV_size {f g : Field} (h : f.size = g.size) : ∀ (t : Ty) (a : Nat), t.alignV f a = t.alignV g a
  | .ptr t, a => by simp only [Ty.alignV]; exact alignV_size h t a
  | .arr n t, a => by
    simp only [Ty.alignV]
    rw [funext (fun x => alignV_size h t x)]
  | .slice t, a => by simp only [Ty.alignV, h]
  | .struct _ fs, a => by simp only [Ty.alignV]
  | .uint _, a => by simp only [Ty.alignV, h]
  | .int _, a => by simp only [Ty.alignV, h]
  | .bool, a => by simp only [Ty.alignV, h]
  | .str, a => by simp only [Ty.alignV]
end

mutual
theorem honestA_V (e : MEnv (σ × Bool)) (k : Sink σ) (he : e.sink = watch k) :
    ∀ (t : Ty) (fi : Field) (v : Val) (a b : Nat), fi.varint = false → t.nodup = true → typedV t v = true → a < 8 →
      t.alignV fi a = some b → HonestA a b (marshalV e t fi v)
  | .ptr t, fi, v, a, b, hv, hd, hty, ha, hal => by
    simp only [Ty.alignV] at hal
    simp only [Ty.nodup] at hd
    cases v <;> simp only [marshalV] <;> try exact HonestA.panic
    case ptr o =>
      cases o with
      | none => exact HonestA.panic
      | some x => exact honestA_V e k he t fi x a b hv hd (by simpa only [typedV] using hty) ha hal
  | .struct c fs, fi, v, a, b, hv, hd, hty, ha, hal => by
    simp only [Ty.alignV] at hal
    simp only [Ty.nodup] at hd
    cases v <;> simp only [marshalV] <;> try exact HonestA.panic
    simp only [typedV] at hty
    exact honestA_fields e k he false c fs _ a b hd
      (fieldsTyped_of_typed _ _ (Fields.nodup_names _ hd) hty) ha hal
  | .arr n t, fi, v, a, b, hv, hd, hty, ha, hal => by
    simp only [Ty.alignV] at hal
    simp only [Ty.nodup] at hd
    cases v <;> simp only [marshalV] <;> try exact HonestA.panic
    case arr l =>
      simp only [typedV] at hty
      rw [Bool.and_eq_true, beq_iff_eq] at hty
      rw [← hty.1] at hal
      exact honestA_forElems (fun x y hx hy => alignV_lt fi t x y hx hy) (fun x => typedV t x = true)
        (fun x c d hx hc hcd => honestA_V e k he t fi x c d hv hd hx hc hcd) l a b
        (List.all_eq_true.mp hty.2) ha hal
  | .slice t, fi, v, a, b, hv, hd, hty, ha, hal => by
    simp only [Ty.alignV] at hal
    split at hal
    · next hc =>
      simp only [Bool.and_eq_true, beq_iff_eq] at hc
      simp only [Option.some.injEq] at hal
      subst hal
      obtain ⟨⟨h1, h2⟩, h3⟩ := hc
      subst h3
      cases v <;> simp only [marshalV] <;> try exact HonestA.panic
      case slice l =>
        split
        · exact HonestA.fail _
        · generalize (if fi.length ≠ lengthUnlimited then List.take fi.length l else l) = l'
          intro s x s' hs h
          unfold marshalElems at h
          rw [M.bind_run] at h
          simp only [M.get, h1, h2, hs, and_self, if_true] at h
          rw [he] at h
          exact HonestA.bind (honestA_liftW (honest_copyBytes k _) 0) (fun _ => honestA_addW8 0 _) s x s' hs h
    · simp at hal
  | .int _, fi, v, a, b, hv, hd, hty, ha, hal => by
    simp only [Ty.alignV, Option.some.injEq] at hal
    cases v <;> simp only [marshalV] <;> try exact HonestA.panic
    rw [hv, he, ← hal]
    exact honestA_intLoop k fi.size _ _ _ 0 a (by omega) (by omega) ha
  | .uint _, fi, v, a, b, hv, hd, hty, ha, hal => by
    simp only [Ty.alignV, Option.some.injEq] at hal
    cases v <;> simp only [marshalV] <;> try exact HonestA.panic
    rw [hv, he, ← hal]
    exact honestA_uintLoop k fi.size _ _ 0 a (by omega) (by omega) ha
  | .bool, fi, v, a, b, hv, hd, hty, ha, hal => by
    simp only [Ty.alignV, Option.some.injEq] at hal
    cases v <;> simp only [marshalV] <;> try exact HonestA.panic
    rw [he, ← hal]
    exact HonestA.bind (honestA_liftW (honest_writeBits k _ _) a) (fun _ => honestA_addW a _)
  | .str, fi, v, a, b, hv, hd, hty, ha, hal => by
    simp only [Ty.alignV, Option.some.injEq] at hal
    subst hal
    cases v <;> simp only [marshalV] <;> try exact HonestA.panic
    rw [he]
    refine HonestA.bind (honestA_stringLoop k a _) (fun _ => ?_)
    split
    · exact HonestA.pure _
    · exact HonestA.bind (honestA_liftW (honest_writeBits k _ _) a) (fun _ => honestA_addW8 a 1)
theorem honestA_fields (e : MEnv (σ × Bool)) (k : Sink σ) (he : e.sink = watch k) (top : Bool) (c : Option Cfo) :
    ∀ (fs : Fields) (sv : SV) (a b : Nat), fs.nodup = true → FieldsTyped sv fs → a < 8 → fs.alignF a = some b →
      HonestA a b (marshalFields e top c fs sv)
  | .nil, sv, a, b, _, _, _, hal => by
    simp only [Fields.alignF, Option.some.injEq] at hal
    subst hal
    simp only [marshalFields]; exact HonestA.pure _
  | .cons f t fs, sv, a, b, hd, hty, ha, hal => by
    simp only [Fields.alignF] at hal
    simp only [Fields.nodup] at hd
    rw [Bool.and_eq_true, Bool.and_eq_true] at hd
    simp only [FieldsTyped] at hty
    obtain ⟨⟨v, hget, hvt⟩, htyr⟩ := hty
    split at hal
    · simp at hal
    · next hsv =>
      simp only [Bool.or_eq_true, not_or, Bool.not_eq_true] at hsv
      cases hv : t.alignV f a with
      | none => rw [hv] at hal; simp at hal
      | some d =>
        rw [hv] at hal
        simp only at hal
        split at hal
        case isFalse => simp at hal
        case isTrue hc =>
          have hd8 := alignV_lt f t a d ha hv
          have hrec := honestA_fields e k he top c fs sv d b hd.2 htyr hd8 hal
          simp only [marshalFields]
          generalize (if c.isSome = true then sv else e.root) = csv
          split
          · exact HonestA.panic
          · next fi hres =>
            have hvar : fi.varint = false := by rw [resolve_varint hres]; exact hsv.2
            have hsz : fi.size = f.size := resolve_static hsv.1 hres
            have hfv : t.alignV fi a = some d := by rw [alignV_size hsz]; exact hv
            have hskip : isTarget (c.getD e.cfo) e.ctx e.root csv fi = false ∨
                (f.name = "SchemeIdUri" ∨ f.name = "Value" ∨ f.name = "HighProfileFieldsEnabled") → d = a := by
              intro h
              rw [Bool.or_eq_true] at hc
              rcases hc with hc | hc
              · simpa using hc
              · simp only [Bool.and_eq_true, bne_iff_ne] at hc
                rcases h with h | h
                · rw [uncond_target hres hc.1.1.1] at h
                  simp at h
                · rcases h with h | h | h
                  · exact absurd h hc.1.1.2
                  · exact absurd h hc.1.2
                  · exact absurd h hc.2
            split
            · next hnt =>
              have := hskip (Or.inl (by simpa using hnt))
              subst this
              exact hrec
            · have hk : ∀ x : Nat × Bool, (x.1 % 8 = 0 ∧ (x.2 = true → f.name = "SchemeIdUri" ∨ f.name = "Value" ∨
                  f.name = "HighProfileFieldsEnabled")) → HonestA a b (do
                  addW x.1
                  if x.2 = true then marshalFields e top c fs sv
                  else match sv.get f.name with
                    | none => M.panic
                    | some v => do marshalV e t fi v; marshalFields e top c fs sv) := by
                intro x hx
                have h8 : HonestA a a (addW x.1 : MM (σ × Bool) Unit) := by
                  have := honestA_addW8 (σ := σ) a (x.1 / 8)
                  have e : x.1 / 8 * 8 = x.1 := by omega
                  rw [e] at this
                  exact this
                refine HonestA.bind h8 (fun _ => ?_)
                split
                · next ho =>
                  have := hskip (Or.inr (hx.2 ho))
                  subst this
                  exact hrec
                · rw [hget]
                  exact HonestA.bind (honestA_V e k he t fi v a d hvar hd.1.2 hvt ha hfv) (fun _ => hrec)
              cases top with
              | true =>
                simp only [if_true]
                rw [he]
                refine HonestA.bind' _ ?_ (honestA_liftW (honest_onWrite _ k _ _) a) hk
                intro s x s' h
                unfold liftW at h
                cases ho : onWrite e.hook (watch k) f.name sv s.w with
                | mk r w' =>
                  rw [ho] at h
                  simp only [Prod.mk.injEq] at h
                  rw [h.1] at ho
                  exact onWrite_wbits ho
              | false =>
                simp only [Bool.false_eq_true, if_false]
                refine HonestA.bind' _ ?_ (HonestA.pure _) hk
                intro s x s' h
                simp only [M.pure_run, Prod.mk.injEq, Out.ok.injEq] at h
                rw [← h.1]
                simp
end

theorem marshalBox_honest {bd : BoxDef} (hd : bd.fields.nodup = true)
    (hb : bd.fields.noList = true ∨ (bd.fields.alignF 0).isSome = true) {k : Sink σ}
    {ctx : Ctx} {sv : SV} (hty : typedFields bd.fields sv = true)
    {s t : σ} {b : Bool} {n : Nat} (h : marshalBox bd (watch k) ctx sv (s, false) = (.ok n, (t, b))) : b = false := by
  unfold marshalBox at h
  cases hr : marshalFields (bd.menv (watch k) ctx sv) true (some bd.cfo) bd.fields sv ⟨WSt.fresh (s, false), 0⟩ with
  | mk r st =>
    rw [hr] at h
    cases r with
    | ok a =>
      have : mfail st = mfail ⟨WSt.fresh (s, false), 0⟩ := by
        rcases hb with hb | hb
        · exact honest_fields (bd.menv (watch k) ctx sv) k rfl true (some bd.cfo) bd.fields sv hb _ _ _ hr
        · rw [Option.isSome_iff_exists] at hb
          obtain ⟨c, hc⟩ := hb
          exact (honestA_fields (bd.menv (watch k) ctx sv) k rfl true (some bd.cfo) bd.fields sv 0 c hd
            (fieldsTyped_of_typed _ _ (Fields.nodup_names _ hd) hty) (by omega) hc _ _ _ rfl hr).1
      simp only at h
      split at h
      · simp at h
      · simp only [Prod.mk.injEq] at h
        unfold mfail at this
        rw [h.2] at this
        exact this
    | err e => simp at h
    | panic => simp at h
    | hang => simp at h

/-- the box types whose `Marshal` may lose errors of the destination: those with lists of something other than
bytes (and `colr`, where a list of bytes follows bit fields that may be absent) -/
def mayLoseErrors : List String :=
  ["Co64", "Colr", "Ctts", "Elst", "Ftyp", "HvcC", "Saio", "AVCDecoderConfiguration", "Sbgp", "Sdtp", "Sgpd",
   "Sidx", "Stco", "Stsc", "Stss", "Stsz", "Stts", "Styp", "Tfra", "Trun", "Esds", "Pssh", "Keys"]

theorem allDefs_honest : ∀ bd ∈ Cat.allDefs, bd.goName ∉ mayLoseErrors →
    bd.fields.noList = true ∨ (bd.fields.alignF 0).isSome = true := by
  have h : Cat.allDefs.all (fun bd => mayLoseErrors.contains bd.goName ||
    (bd.fields.noList || (bd.fields.alignF 0).isSome)) = true := by decide
  intro bd hbd hn
  have := List.all_eq_true.mp h bd hbd
  simp only [Bool.or_eq_true, List.contains_iff_mem] at this
  exact this.resolve_left hn

end Mp4
