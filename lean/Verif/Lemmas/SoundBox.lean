import Verif.Lemmas.Sound

/-!
# What was decoded is what the bits say: structs
-/

namespace Mp4

open Spec

/-! ## conditions on types that can be checked by evaluation -/

/-- For numbers: the field is not larger than the type (and there is no variable-length form); strings
all end in the same way. -/
def Ty.fiOk (dir : Bool) (fi : Field) : Ty → Bool
  | .uint w => !fi.varint && decide (fi.size ≤ w) && decide (w ≤ 64)
  | .int w => !fi.varint && decide (fi.size ≤ w) && decide (w ≤ 64)
  | .bool => decide (fi.size ≤ 1)
  | .str => fi.boxString == !dir
  | .ptr t => t.fiOk dir fi
  | .arr _ t => t.fiOk dir fi
  | .slice t => t.fiOk dir fi
  | .struct _ _ => true

mutual
/-- Can the bits be compared with the layout?  `ex`: fields whose size is given by the box. -/
def Ty.exact (dir : Bool) (ex : List String) : Ty → Bool
  | .ptr t => t.exact dir ex
  | .arr _ t => t.exact dir ex
  | .slice t => t.exact dir ex
  | .struct c fs => fs.exact dir ex c
  | _ => true
/-- the same for fields -/
def Fields.exact (dir : Bool) (ex : List String) (c : Option Cfo) : Fields → Bool
  | .nil => true
  | .cons f t fs =>
    (if f.sizeDyn then t.fiOk dir { f with size := 32 } && (!t.numeric || (c.isNone && ex.contains f.name))
     else t.fiOk dir f) &&
    t.exact dir ex && fs.exact dir ex c
end

/-- Numbers in the field of this name have at most 32 bits. -/
def Fields.small (fs : Fields) (m : String) : Bool :=
  fs.toList.all (fun p => p.1.name != m ||
    match p.2 with
    | .uint w => decide (w ≤ 32)
    | .int w => decide (0 < w ∧ w ≤ 32)
    | _ => true)

mutual
/-- Signed types have a sign bit, no string is in the "C or Pascal" form, lengths depend on numbers of at most 32 bits. -/
def Ty.basic : Ty → Bool
  | .int w => decide (0 < w)
  | .ptr t => t.basic
  | .arr _ t => t.basic
  | .slice t => t.basic
  | .struct c fs => Fields.basic c fs fs
  | _ => true
/-- the same for fields -/
def Fields.basic (c : Option Cfo) (all : Fields) : Fields → Bool
  | .nil => true
  | .cons f t fs =>
    !f.strCP &&
    (if f.lenDyn then
      match c with
      | none => false
      | some c' => (c'.deps f.name).all (fun m => all.small m)
     else decide (f.length < 2 ^ 61)) &&
    t.basic && Fields.basic c all fs
end

/-- a length that does not wrap around to a small one when multiplied by 8 -/
def Sane (l : Nat) : Prop := l < 2 ^ 61 ∨ (2 ^ 64 - 2 ^ 40 ≤ l ∧ l < 2 ^ 64)

/-- Lengths computed from numbers of at most 32 bits are sane. -/
def Cfo.SmallLen (c : Cfo) : Prop :=
  ∀ n ctx (sv : SV) l, (∀ m ∈ c.deps n, sv.uint m < 2 ^ 32 ∧ -(2 ^ 31 : Int) ≤ sv.int m ∧ sv.int m < (2 ^ 31 : Int)) →
    c.length n ctx sv = some l → Sane l

mutual
/-- All method tables in the type compute sane lengths. -/
def Ty.AllSmall : Ty → Prop
  | .ptr t => t.AllSmall
  | .arr _ t => t.AllSmall
  | .slice t => t.AllSmall
  | .struct c fs => (∀ c', c = some c' → c'.SmallLen) ∧ fs.AllSmall
  | _ => True
/-- All method tables in the fields compute sane lengths. -/
def Fields.AllSmall : Fields → Prop
  | .nil => True
  | .cons _ t fs => t.AllSmall ∧ fs.AllSmall
end

theorem small_num {m : String} : ∀ {fs : Fields} {sv : SV}, typedFields fs sv = true → fs.small m = true →
    sv.uint m < 2 ^ 32 ∧ -(2 ^ 31 : Int) ≤ sv.int m ∧ sv.int m < (2 ^ 31 : Int)
  | .nil, [], _, _ => by simp [SV.uint, SV.int, SV.get]
  | .nil, _ :: _, h, _ => by simp [typedFields] at h
  | .cons f t fs, [], h, _ => by simp [typedFields] at h
  | .cons f t fs, (n, v) :: rest, h, hs => by
    simp only [typedFields] at h
    rw [Bool.and_eq_true, Bool.and_eq_true, beq_iff_eq] at h
    obtain ⟨⟨rfl, hv⟩, hr⟩ := h
    simp only [Fields.small, Fields.toList, List.all_cons] at hs
    rw [Bool.and_eq_true] at hs
    by_cases hn : f.name = m
    · have h1 := hs.1
      rw [show (f.name != m) = false by simp [hn], Bool.false_or] at h1
      simp only [SV.uint, SV.int, SV.get, hn, if_true]
      cases t <;> cases v <;> simp only [typedV] at hv <;> try contradiction
      all_goals simp only [Int.reducePow, Int.reduceNeg, Nat.reducePow, decide_eq_true_eq] at *
      all_goals try omega
      · next w k =>
        have := Nat.pow_le_pow_right (n := 2) (by decide) h1
        omega
      · next w i =>
        have := Nat.pow_le_pow_right (n := 2) (show 0 < 2 by decide) (show w - 1 ≤ 31 by omega)
        omega
    · have := small_num (m := m) hr hs.2
      simp only [SV.uint, SV.int, SV.get, hn, if_false]
      exact this

theorem fiOk_inst {dir : Bool} {f : Field} {a z l : Nat} : ∀ {t : Ty}, t.fiOk dir { f with size := a } = true →
    (t.numeric = true → z ≤ a) → t.fiOk dir { f with size := z, length := l } = true
  | .uint w, h, hz => by
    simp only [Ty.fiOk, Bool.and_eq_true, decide_eq_true_eq] at h ⊢
    have := hz rfl
    exact ⟨⟨h.1.1, by omega⟩, h.2⟩
  | .int w, h, hz => by
    simp only [Ty.fiOk, Bool.and_eq_true, decide_eq_true_eq] at h ⊢
    have := hz rfl
    exact ⟨⟨h.1.1, by omega⟩, h.2⟩
  | .bool, h, hz => by
    simp only [Ty.fiOk, decide_eq_true_eq] at h ⊢
    have := hz rfl
    omega
  | .str, h, _ => by simpa only [Ty.fiOk] using h
  | .ptr t, h, hz => by simp only [Ty.fiOk, Ty.numeric] at *; exact fiOk_inst h hz
  | .arr _ t, h, hz => by simp only [Ty.fiOk, Ty.numeric] at *; exact fiOk_inst h hz
  | .slice t, h, hz => by simp only [Ty.fiOk, Ty.numeric] at *; exact fiOk_inst h hz
  | .struct _ _, _, _ => by simp only [Ty.fiOk]

/-! ## loops -/

section
variable {α : Type} {d : Bytes}

theorem okp_arrLoop {f : Val → UM Val} {P : Val → Prop} {R : List Bool → Val → Prop} :
    ∀ (l : List Val) (s : USt), s.r.WF d → (∀ x ∈ l, P x) →
      (∀ x s, P x → s.r.WF d → OkPost d R s (f x s)) →
      OkPost d (fun bs l' => l'.length = l.length ∧ ∃ bss : List (List Bool), bss.length = l'.length ∧
        bs = bss.flatten ∧ ∀ p ∈ bss.zip l', R p.1 p.2) s (arrLoop f l s)
  | [], s, hw, _, _ => OkPost.pure hw ⟨rfl, [], rfl, rfl, by simp⟩
  | x :: xs, s, hw, hp, hf => by
    unfold arrLoop
    refine OkPost.bind (hf x s (hp x (by simp)) hw) ?_
    intro bs v s' hR _ hw' _
    refine OkPost.map (g := fun vs => v :: vs) ?_
    refine (okp_arrLoop xs s' hw' (fun y hy => hp y (by simp [hy])) hf).mono ?_
    intro bs' l' ⟨h1, bss, h2, h3, h4⟩
    refine ⟨by simp [h1], bs :: bss, by simp [h2], by simp [h3], ?_⟩
    intro p hmem
    simp only [List.zip_cons_cons, List.mem_cons] at hmem
    rcases hmem with rfl | hmem
    · exact hR
    · exact h4 p hmem

theorem okp_sliceElem {size8 : Nat} {f : UM Val} {R : List Bool → Val → Prop} {s : USt} (h : OkPost d R s (f s)) :
    OkPost d R s (sliceElem size8 f s) := by
  unfold sliceElem
  refine OkPost.bind h ?_
  intro bs v s' hR _ hw' hc
  apply OkPost.get
  split
  · exact OkPost.fail _
  · exact OkPost.pure hw' (by rw [List.append_nil]; exact hR)

theorem okp_countLoop {size8 : Nat} {f : UM Val} {R : List Bool → Val → Prop} :
    ∀ (n : Nat) (s : USt), s.r.WF d → (∀ s, s.r.WF d → OkPost d R s (f s)) →
      OkPost d (fun bs l => l.length = n ∧ ∃ bss : List (List Bool), bss.length = l.length ∧
        bs = bss.flatten ∧ ∀ p ∈ bss.zip l, R p.1 p.2) s (countLoop size8 f n s)
  | 0, s, hw, _ => OkPost.pure hw ⟨rfl, [], rfl, rfl, by simp⟩
  | n + 1, s, hw, hf => by
    unfold countLoop
    refine OkPost.bind (okp_sliceElem (hf s hw)) ?_
    intro bs v s' hR _ hw' _
    refine OkPost.map (g := fun vs => v :: vs) ?_
    refine (okp_countLoop n s' hw' hf).mono ?_
    intro bs' l' ⟨h1, bss, h2, h3, h4⟩
    refine ⟨by simp [h1], bs :: bss, by simp [h2], by simp [h3], ?_⟩
    intro p hmem
    simp only [List.zip_cons_cons, List.mem_cons] at hmem
    rcases hmem with rfl | hmem
    · exact hR
    · exact h4 p hmem

theorem okp_greedyLoop {size8 : Nat} {f : UM Val} {R : List Bool → Val → Prop} :
    ∀ (fuel : Nat) (s : USt), s.r.WF d → (∀ s, s.r.WF d → OkPost d R s (f s)) →
      OkPost d (fun bs l => ∃ bss : List (List Bool), bss.length = l.length ∧
        bs = bss.flatten ∧ ∀ p ∈ bss.zip l, R p.1 p.2) s (greedyLoop size8 f fuel s)
  | 0, s, hw, _ => by unfold greedyLoop; exact OkPost.hang
  | fuel + 1, s, hw, hf => by
    unfold greedyLoop
    apply OkPost.get
    split
    · next h => exact OkPost.pure hw ⟨[], rfl, rfl, by simp⟩
    · next h =>
      refine OkPost.bind (okp_sliceElem (hf s hw)) ?_
      intro bs v s' hR _ hw' hc
      refine OkPost.map (g := fun vs => v :: vs) ?_
      refine (okp_greedyLoop fuel s' hw' hf).mono ?_
      intro bs' l' ⟨bss, h2, h3, h4⟩
      refine ⟨bs :: bss, by simp [h2], by simp [h3], ?_⟩
      intro p hmem
      simp only [List.zip_cons_cons, List.mem_cons] at hmem
      rcases hmem with rfl | hmem
      · exact hR
      · exact h4 p hmem

theorem okp_structInternal {Q : List Bool → α → Prop} {size8 : Nat} {fi : Field} {m : Nat → UM α} {s : USt}
    (h : ∀ size8 s', s'.r = s.r → OkPost d Q s' (m size8 s')) : OkPost d Q s (structInternal size8 fi m s) := by
  unfold structInternal
  split
  · intro a s' hx
    unfold sizedStruct at hx
    have hm := h (fi.size % U64) { s with rbits := 0 } rfl
    cases hr : m (fi.size % U64) { s with rbits := 0 } with
    | mk o s1 =>
      rw [hr] at hx
      cases o with
      | ok b =>
        simp only at hx
        split at hx
        · cases hx
        · cases hx
          obtain ⟨bs, e1, w1, c1, q1⟩ := hm _ _ hr
          simp only [Nat.zero_add] at c1
          exact ⟨bs, e1, w1, by simp only; omega, q1⟩
      | err _ => cases hx
      | panic => cases hx
      | hang => cases hx
  · exact h size8 s rfl

theorem OkPost.bound {Q : List Bool → α → Prop} {s : USt} {x : Out α × USt} (hw : s.r.WF d) (h : OkPost d Q s x) :
    OkPost d (fun bs a => Q bs a ∧ bs.length < 8 * d.length + 8) s x := by
  intro a s' hx
  obtain ⟨bs, h1, h2, h3, h4⟩ := h a s' hx
  refine ⟨bs, h1, h2, h3, h4, ?_⟩
  have := congrArg List.length h1
  rw [List.length_append, RSt.rem_length] at this
  have := hw.width
  omega

end

/-! ## the relation between bits and value -/

/-- `L` is the environment of the finished box; `e` the one while decoding, when the fields `rk` of the box are known. -/
structure Final (L : Env) (e : UEnv) (rk : List String) : Prop where
  ctx : L.ctx = e.ctx
  cfo : L.cfo = e.cfo
  root : ∀ n ∈ rk, L.root.get n = e.root.get n

/-- the sizes given by the box are at most 32 -/
def ExOk (ex : List String) (L : Env) : Prop := ∀ n ∈ ex, ∀ z, L.cfo.size n L.ctx L.root = some z → z ≤ 32

/-- What is known of a value that was decoded from the bits `bs`. -/
def VQ (q dir : Bool) (ex : List String) (e : UEnv) (rk : List String) (t : Ty) (fi : Field) (bs : List Bool) (v : Val) :
    Prop :=
  typedV t v = true ∧ (fi.varint = false → ∀ w n, t = .uint w → v = .uint n → n < 2 ^ fi.size) ∧
  ∀ L, Final L e rk → countsV L t fi v = true ∧
    (q = true → ExOk ex L → t.fiOk dir fi = true → SQ dir bs (layoutV L t fi v) ∧ writableV L t fi v = true)

theorem list_VQ {q dir : Bool} {ex : List String} {e : UEnv} {rk : List String} {t : Ty} {fi : Field} :
    ∀ {bss : List (List Bool)} {l : List Val}, bss.length = l.length →
      (∀ p ∈ bss.zip l, VQ q dir ex e rk t fi p.1 p.2) →
      l.all (fun x => typedV t x) = true ∧ ∀ L, Final L e rk → l.all (fun x => countsV L t fi x) = true ∧
        (q = true → ExOk ex L → t.fiOk dir fi = true →
          SQ dir bss.flatten (l.flatMap (fun x => layoutV L t fi x)) ∧ l.all (fun x => writableV L t fi x) = true)
  | [], [], _, _ => ⟨rfl, fun L _ => ⟨rfl, fun _ _ _ => ⟨SQ.refl _ _, rfl⟩⟩⟩
  | b :: bss, v :: l, hl, h => by
    obtain ⟨h1, _, h2⟩ := h (b, v) (by simp)
    obtain ⟨h3, h4⟩ := list_VQ (bss := bss) (l := l) (by simpa using hl) (fun p hp => h p (by simp [hp]))
    simp only at h1 h2
    refine ⟨by simp only [List.all_cons, h1, h3, Bool.and_self], fun L hL => ?_⟩
    have h5 := h2 L hL
    have h6 := h4 L hL
    refine ⟨by simp only [List.all_cons, h5.1, h6.1, Bool.and_self], fun hq hex hfi => ?_⟩
    have h7 := h5.2 hq hex hfi
    have h8 := h6.2 hq hex hfi
    refine ⟨?_, by simp only [List.all_cons, h7.2, h8.2, Bool.and_self]⟩
    rw [List.flatten_cons, List.flatMap_cons]
    exact h7.1.append h8.1
  | [], _ :: _, hl, _ => by simp at hl
  | _ :: _, [], hl, _ => by simp at hl

theorem bytes_layout {L : Env} {fi : Field} (hs : fi.size = 8) (hv : fi.varint = false) : ∀ p : Bytes,
    (p.map (fun b => Val.uint b.toNat)).flatMap (fun x => layoutV L (.uint 8) fi x) = bytesBits p
  | [] => rfl
  | b :: p => by
    rw [List.map_cons, List.flatMap_cons, bytes_layout hs hv p, bytesBits_cons, byteBits_eq_natBits]
    simp only [layoutV, hv, Bool.false_eq_true, if_false, hs]

/-- Facts about a field when it is decoded hold of the finished struct. -/
theorem step_agree {cf : Cfo} {ctx : Ctx} {a b : SV} {f fi : Field} {v v' fl fl' : Nat} (hloc : cf.Local)
    (hdeps : (f.sizeDyn || f.lenDyn || f.optDyn) = true → ∀ m ∈ cf.deps f.name, a.get m = b.get m)
    (hres : resolve cf ctx a f = some fi)
    (hver : (f.version = 255 ∧ f.nVersion = 255 ∧ f.optFlag = 0 ∧ f.nOptFlag = 0) ∨ (v = v' ∧ fl = fl')) :
    instField cf ctx b f = fi ∧ present cf ctx v fl a fi = present cf ctx v' fl' b fi ∧
      (!f.sizeDyn || (cf.size f.name ctx b).isSome) = true ∧ (!f.lenDyn || (cf.length f.name ctx b).isSome) = true := by
  have hans : (f.sizeDyn || f.lenDyn || f.optDyn) = true → cf.size f.name ctx a = cf.size f.name ctx b ∧
      cf.length f.name ctx a = cf.length f.name ctx b ∧ cf.opt f.name ctx a = cf.opt f.name ctx b :=
    fun h => hloc f.name ctx a b (hdeps h)
  rw [resolve_congr hans] at hres
  obtain ⟨size, length, hfi, hs1, hs2, hl1, hl2⟩ := resolve_eta hres
  have hsome1 : (!f.sizeDyn || (cf.size f.name ctx b).isSome) = true := by
    cases h : f.sizeDyn with
    | false => rfl
    | true => rw [hs2 h]; rfl
  have hsome2 : (!f.lenDyn || (cf.length f.name ctx b).isSome) = true := by
    cases h : f.lenDyn with
    | false => rfl
    | true => rw [hl2 h]; rfl
  have hinst := resolve_eq hsome1 hsome2
  rw [hres] at hinst
  injection hinst with hinst
  refine ⟨hinst.symm, ?_, hsome1, hsome2⟩
  apply present_congr
  · rw [hfi]
    intro h
    simp only at h
    exact (hans (by simp [h])).2.2
  · rw [hfi]
    exact hver

theorem layoutFields_cons {L : Env} {c : Option Cfo} {f fi : Field} {t : Ty} {fs : Fields} {sv : SV} {b : Bool}
    (hfi : instField (c.getD L.cfo) L.ctx (if c.isSome then sv else L.root) f = fi)
    (hp : present (c.getD L.cfo) L.ctx L.root.version L.root.flags (if c.isSome then sv else L.root) fi = b) :
    layoutFields L false c (.cons f t fs) sv =
      (if b then (match sv.get f.name with | some v => layoutV L t fi v | none => []) else []) ++
        layoutFields L false c fs sv := by
  simp only [layoutFields, hfi, hp]
  cases sv.get f.name <;> simp

theorem writableFields_cons {L : Env} {c : Option Cfo} {f fi : Field} {t : Ty} {fs : Fields} {sv : SV} {b : Bool}
    (hfi : instField (c.getD L.cfo) L.ctx (if c.isSome then sv else L.root) f = fi)
    (hp : present (c.getD L.cfo) L.ctx L.root.version L.root.flags (if c.isSome then sv else L.root) fi = b)
    (h1 : (!f.sizeDyn || ((c.getD L.cfo).size f.name L.ctx (if c.isSome then sv else L.root)).isSome) = true)
    (h2 : (!f.lenDyn || ((c.getD L.cfo).length f.name L.ctx (if c.isSome then sv else L.root)).isSome) = true) :
    writableFields L false c (.cons f t fs) sv =
      ((!b || (match sv.get f.name with | some v => writableV L t fi v | none => false)) &&
        writableFields L false c fs sv) := by
  simp only [writableFields, hfi, hp, h1, h2]
  cases sv.get f.name <;> simp

theorem countsFields_cons {L : Env} {c : Option Cfo} {f fi : Field} {t : Ty} {fs : Fields} {sv : SV} {b : Bool}
    (hfi : instField (c.getD L.cfo) L.ctx (if c.isSome then sv else L.root) f = fi)
    (hp : present (c.getD L.cfo) L.ctx L.root.version L.root.flags (if c.isSome then sv else L.root) fi = b) :
    countsFields L c (.cons f t fs) sv =
      ((!b || (match sv.get f.name with | some v => countsV L t fi v | none => true)) &&
        countsFields L c fs sv) := by
  simp only [countsFields, hfi, hp]
  cases sv.get f.name <;> rfl

/-- What is known of fields that were decoded from the bits `bs`. -/
def FQ (q dir : Bool) (ex : List String) (e : UEnv) (rk : List String) (c : Option Cfo) (all fs : Fields) (cur : SV)
    (bs : List Bool) (sv : SV) : Prop :=
  typedFields all sv = true ∧ (∀ n, n ∉ fs.names → sv.get n = cur.get n) ∧
  ∀ L, Final L e rk → countsFields L c fs sv = true ∧
    (q = true → ExOk ex L → SQ dir bs (layoutFields L false c fs sv) ∧ writableFields L false c fs sv = true)

section
variable {d : Bytes} {s : USt}

theorem okp_uint {w : Nat} {fi : Field} (hw : s.r.WF d) :
    OkPost d (fun bs v => ∃ n, v = .uint n ∧ n < 2 ^ w ∧
      (fi.varint = false → bs.length = fi.size ∧ n = bitsNat bs % U64 % 2 ^ w)) s (unmarshalUint d w fi s) := by
  unfold unmarshalUint
  split
  · next hv =>
    refine OkPost.map (g := fun v => Val.uint (v % 2 ^ w)) ?_
    refine OkPost.of_post (nh := True) (post_uvarint _ _ _ hw ?_ ?_)
    · rw [RSt.rem_length]
      have := hw.width
      omega
    · intro bs v h8
      exact ⟨_, rfl, Nat.mod_lt _ (Nat.two_pow_pos w), fun h => by rw [hv] at h; simp at h⟩
  · split
    · exact OkPost.fail _
    · apply okp_bitsA hw
      intro bs out s' hl ho _ hw' _
      refine OkPost.pure hw' ?_
      simp only [List.append_nil]
      refine ⟨_, rfl, Nat.mod_lt _ (Nat.two_pow_pos w), fun _ => ⟨hl, ?_⟩⟩
      rw [accBytes_eq _ _ (by decide), ho]
      simp [bitsNat_append]

theorem okp_int {w : Nat} {fi : Field} (hw : s.r.WF d) (h0 : 0 < w) :
    OkPost d (fun bs v => ∃ i, v = .int i ∧ -((2 ^ (w - 1) : Nat) : Int) ≤ i ∧ i < ((2 ^ (w - 1) : Nat) : Int) ∧
      fi.varint = false ∧ 0 < fi.size ∧ bs.length = fi.size ∧
      (fi.size ≤ w → w ≤ 64 → i = toSigned bs.length (bitsNat bs))) s (unmarshalInt d w fi s) := by
  unfold unmarshalInt
  split
  · exact OkPost.fail _
  · next hv =>
    split
    · exact OkPost.fail _
    · next h0' =>
      apply okp_bitsA hw
      intro bs out s' hl ho _ hw' _
      refine OkPost.pure hw' ?_
      simp only [List.append_nil]
      have hr := toSigned_range (w := w) h0
      refine ⟨_, rfl, (hr _).1, (hr _).2, by simpa using hv, by omega, hl, fun h1 h2 => ?_⟩
      exact int_value hl ho (by simpa using hv) (by omega) h1 h2

theorem okp_bool {fi : Field} (hw : s.r.WF d) :
    OkPost d (fun bs v => bs.length = fi.size ∧ ∃ out, v = .bool (out.any (fun b => b != 0#8)) ∧
      bytesBits out = List.replicate ((fi.size + 7) / 8 * 8 - fi.size) false ++ bs) s (unmarshalBool d fi s) := by
  unfold unmarshalBool
  split
  · exact OkPost.fail _
  · apply okp_bitsA hw
    intro bs out s' hl ho _ hw' _
    refine OkPost.pure hw' ?_
    simp only [List.append_nil]
    exact ⟨hl, out, rfl, ho⟩

end

theorem sane_byte {length n m : Nat} (hs : Sane length) (hm : m ≤ maxAlloc) (h : n = length * 8 % U64 / 8)
    (hn : n ≤ m) : n = length := by
  unfold Sane at hs
  simp only [U64, maxAlloc] at *
  omega

mutual
theorem sound_V {d : Bytes} (hd : d.length ≤ maxAlloc) (q dir : Bool) (ex : List String) :
    ∀ (t : Ty) (e : UEnv) (rk : List String) (fi : Field) (cur : Val), e.d = d → e.cfo.Local →
      okV e.cfo rk t = true → t.AllLocal → t.AllSmall → t.basic = true → (q = true → t.exact dir ex = true) →
      t.nodup = true → fi.strCP = false → Sane fi.length → typedV t cur = true →
      ∀ s, s.r.WF d → OkPost d (fun bs v => VQ q dir ex e rk t fi bs v) s (unmarshalV e t fi cur s)
  | .ptr t, e, rk, fi, cur, hed, hlc, hok, hloc, hsm, hb, hex, hn, hcp, hsane, hty, s, hw => by
    simp only [okV] at hok
    simp only [Ty.AllLocal] at hloc
    simp only [Ty.AllSmall] at hsm
    simp only [Ty.basic] at hb
    simp only [Ty.exact] at hex
    simp only [Ty.nodup] at hn
    simp only [unmarshalV]
    refine OkPost.map (g := fun v => Val.ptr (some v)) ?_
    refine (sound_V hd q dir ex t e rk fi t.zero hed hlc hok hloc hsm hb hex hn hcp hsane (zero_typed t) s hw).mono ?_
    intro bs v ⟨h1, _, h2⟩
    refine ⟨by simpa only [typedV] using h1, by simp, fun L hL => ?_⟩
    simp only [countsV, layoutV, writableV, Ty.fiOk]
    exact h2 L hL
  | .struct c fs, e, rk, fi, cur, hed, hlc, hok, hloc, hsm, hb, hex, hn, hcp, hsane, hty, s, hw => by
    simp only [okV] at hok
    simp only [Ty.AllLocal] at hloc
    simp only [Ty.AllSmall] at hsm
    simp only [Ty.basic] at hb
    simp only [Ty.exact] at hex
    simp only [Ty.nodup] at hn
    cases cur with
    | struct sv =>
      simp only [typedV] at hty
      simp only [unmarshalV]
      apply okp_structInternal
      intro size8 s' hs'
      refine OkPost.map (g := fun v => Val.struct v) ?_
      refine (sound_fields hd q dir ex fs { e with size8 := size8 } rk c fs [] sv (fun _ _ h => h)
        (Fields.nodup_names fs hn) hed hlc (by simp) hloc.1 hsm.1 hok hloc.2 hsm.2 hb hex hn hty s'
        (by rw [hs']; exact hw)).mono ?_
      intro bs v ⟨h1, _, h2⟩
      refine ⟨by simpa only [typedV] using h1, by simp, fun L hL => ?_⟩
      have h3 := h2 L ⟨hL.ctx, hL.cfo, hL.root⟩
      simp only [countsV, layoutV, writableV, Ty.fiOk]
      exact ⟨h3.1, fun hq he _ => h3.2 hq he⟩
    | uint _ => simp [typedV] at hty
    | int _ => simp [typedV] at hty
    | bool _ => simp [typedV] at hty
    | str _ => simp [typedV] at hty
    | ptr _ => simp [typedV] at hty
    | arr _ => simp [typedV] at hty
    | slice _ => simp [typedV] at hty
  | .arr n t, e, rk, fi, cur, hed, hlc, hok, hloc, hsm, hb, hex, hn, hcp, hsane, hty, s, hw => by
    simp only [okV] at hok
    simp only [Ty.AllLocal] at hloc
    simp only [Ty.AllSmall] at hsm
    simp only [Ty.basic] at hb
    simp only [Ty.exact] at hex
    simp only [Ty.nodup] at hn
    cases cur with
    | arr l =>
      simp only [typedV] at hty
      rw [Bool.and_eq_true, beq_iff_eq] at hty
      simp only [unmarshalV]
      refine OkPost.map (g := fun v => Val.arr v) ?_
      refine (okp_arrLoop (P := fun x => typedV t x = true)
        (R := fun bs v => VQ q dir ex e rk t fi bs v) l s hw (List.all_eq_true.mp hty.2)
        (fun x s hx hw => sound_V hd q dir ex t e rk fi x hed hlc hok hloc hsm hb hex hn hcp hsane hx s hw)).mono ?_
      intro bs l' ⟨h1, bss, h2, h3, h4⟩
      obtain ⟨h5, h6⟩ := list_VQ h2 h4
      refine ⟨?_, by simp, fun L hL => ?_⟩
      · simp only [typedV]
        rw [Bool.and_eq_true, beq_iff_eq]
        exact ⟨h1.trans hty.1, h5⟩
      · simp only [countsV, layoutV, writableV, Ty.fiOk]
        rw [h3]
        exact h6 L hL
    | uint _ => simp [typedV] at hty
    | int _ => simp [typedV] at hty
    | bool _ => simp [typedV] at hty
    | str _ => simp [typedV] at hty
    | ptr _ => simp [typedV] at hty
    | struct _ => simp [typedV] at hty
    | slice _ => simp [typedV] at hty
  | .slice t, e, rk, fi, cur, hed, hlc, hok, hloc, hsm, hb, hex, hn, hcp, hsane, hty, s, hw => by
    simp only [okV] at hok
    simp only [Ty.AllLocal] at hloc
    simp only [Ty.AllSmall] at hsm
    simp only [Ty.basic] at hb
    simp only [Ty.exact] at hex
    simp only [Ty.nodup] at hn
    simp only [unmarshalV]
    -- a list with the right number of elements
    have hlist : ∀ (bss : List (List Bool)) (l : List Val), bss.length = l.length →
        (∀ p ∈ bss.zip l, VQ q dir ex e rk t fi p.1 p.2) → (fi.length = lengthUnlimited ∨ l.length = fi.length) →
        VQ q dir ex e rk (.slice t) fi bss.flatten (.slice l) := by
      intro bss l h1 h2 h3
      obtain ⟨h5, h6⟩ := list_VQ h1 h2
      have hc : counted fi l = l := by
        unfold counted
        split
        · rfl
        · next h =>
          rcases h3 with h3 | h3
          · exact absurd h3 h
          · rw [← h3, List.take_length]
      refine ⟨by simpa only [typedV] using h5, by simp, fun L hL => ?_⟩
      have h7 := h6 L hL
      simp only [countsV, layoutV, writableV, Ty.fiOk, hc]
      refine ⟨?_, fun hq he hf => ⟨(h7.2 hq he hf).1, ?_⟩⟩
      · rw [h7.1, Bool.and_true, Bool.or_eq_true, beq_iff_eq, beq_iff_eq]
        exact h3
      · rw [(h7.2 hq he hf).2, Bool.and_true, Bool.or_eq_true, beq_iff_eq, decide_eq_true_eq]
        rcases h3 with h3 | h3
        · exact Or.inl h3
        · exact Or.inr (by omega)
    unfold unmarshalSlice
    apply OkPost.get
    simp only
    split
    · exact OkPost.fail _
    · have hlen : fi.length = lengthUnlimited ∨ (if fi.length = lengthUnlimited then
          (if fi.size ≠ 0 then left e.size8 s.rbits / fi.size else 0) else fi.length) = fi.length := by
        split <;> simp_all
      generalize (if fi.length = lengthUnlimited then
        (if fi.size ≠ 0 then left e.size8 s.rbits / fi.size else 0) else fi.length) = len at hlen ⊢
      have hel : ∀ s, s.r.WF d → OkPost d (fun bs v => VQ q dir ex e rk t fi bs v) s
          (unmarshalV e t fi t.zero s) := fun s hw =>
        sound_V hd q dir ex t e rk fi t.zero hed hlc hok hloc hsm hb hex hn hcp hsane (zero_typed t) s hw
      split
      · next hc =>
        rw [hed]
        refine ((OkPost.of_post (nh := True) (post_byteSlice hw hd)).bound hw).mono ?_
        intro bs v ⟨⟨p, hv, hbs, hpl⟩, hlt⟩
        subst hv
        have hbyte : t = .uint 8 := by
          cases t with
          | uint w =>
            have := hc.2.1
            unfold Ty.isByte at this
            split at this
            · assumption
            · cases this
          | _ => simp [Ty.isByte] at hc
        subst hbyte
        have hplen : fi.length = lengthUnlimited ∨ p.length = fi.length := by
          rcases hlen with h | h
          · exact Or.inl h
          · right
            rw [hbs, bytesBits_length] at hlt
            exact sane_byte hsane hd (h ▸ hpl) (by omega)
        have hcnt : counted fi (p.map (fun b => Val.uint b.toNat)) = p.map (fun b => Val.uint b.toNat) := by
          unfold counted
          split
          · rfl
          · next h =>
            rcases hplen with h3 | h3
            · exact absurd h3 h
            · rw [← h3, ← List.length_map (as := p) (fun b => Val.uint b.toNat), List.take_length]
        refine ⟨?_, by simp, fun L hL => ?_⟩
        · simp only [typedV, List.all_map, List.all_eq_true, Function.comp_apply, decide_eq_true_eq]
          intro x _
          exact x.isLt
        · simp only [countsV, layoutV, writableV, Ty.fiOk]
          refine ⟨?_, fun hq he hf => ⟨?_, ?_⟩⟩
          · rw [Bool.and_eq_true, Bool.or_eq_true, beq_iff_eq, beq_iff_eq, List.length_map]
            exact ⟨hplen, by simp⟩
          · rw [hcnt]
            simp only [Bool.and_eq_true, Bool.not_eq_true'] at hf
            have := bytes_layout (L := L) (fi := fi) hc.2.2 hf.1.1 p
            simp only [layoutV] at this
            rw [this, hbs]
            exact SQ.refl _ _
          · rw [hcnt]
            simp only [Bool.and_eq_true, Bool.not_eq_true'] at hf
            rw [Bool.and_eq_true, Bool.or_eq_true, beq_iff_eq, decide_eq_true_eq, List.length_map]
            refine ⟨?_, by simp [hf.1.1]⟩
            rcases hplen with h3 | h3
            · exact Or.inl h3
            · exact Or.inr (by omega)
      · split
        · next hul =>
          refine OkPost.map (g := fun v => Val.slice v) ?_
          refine (okp_greedyLoop (R := fun bs v => VQ q dir ex e rk t fi bs v) _ s hw hel).mono ?_
          intro bs l' ⟨bss, h2, h3, h4⟩
          rw [h3]
          exact hlist bss l' h2 h4 (Or.inl hul)
        · refine OkPost.map (g := fun v => Val.slice v) ?_
          refine (okp_countLoop (R := fun bs v => VQ q dir ex e rk t fi bs v) _ s hw hel).mono ?_
          intro bs l' ⟨h1, bss, h2, h3, h4⟩
          rw [h3]
          refine hlist bss l' h2 h4 ?_
          rcases hlen with h | h
          · exact Or.inl h
          · exact Or.inr h1
  | .int w, e, rk, fi, cur, hed, hlc, hok, hloc, hsm, hb, hex, hn, hcp, hsane, hty, s, hw => by
    simp only [Ty.basic, decide_eq_true_eq] at hb
    simp only [unmarshalV]
    rw [hed]
    refine (okp_int hw hb).mono ?_
    intro bs v ⟨i, hv, hr1, hr2, hvar, h0, hl, hval⟩
    subst hv
    refine ⟨by simp only [typedV, decide_eq_true_eq]; exact ⟨hr1, hr2⟩, by simp, fun L hL => ?_⟩
    simp only [countsV, layoutV, writableV, Ty.fiOk, true_and]
    intro _ _ hf
    simp only [Bool.and_eq_true, decide_eq_true_eq] at hf
    have hi := hval hf.1.2 hf.2
    have hr := toSigned_range (w := bs.length) (by omega) (bitsNat bs)
    rw [← hi, hl] at hr
    have hbits := signed_natBits hi
    rw [hl] at hbits
    refine ⟨by rw [hbits]; exact SQ.refl _ _, ?_⟩
    rw [hvar]
    simp only [Bool.not_false, Bool.true_and, decide_eq_true_eq]
    exact ⟨h0, by omega, hr⟩
  | .uint w, e, rk, fi, cur, hed, hlc, hok, hloc, hsm, hb, hex, hn, hcp, hsane, hty, s, hw => by
    simp only [unmarshalV]
    rw [hed]
    refine (okp_uint hw).mono ?_
    intro bs v ⟨n, hv, hr, hval⟩
    subst hv
    refine ⟨by simp only [typedV, decide_eq_true_eq]; exact hr, ?_, fun L hL => ?_⟩
    · intro hvar w' n' hw' hn'
      injection hn' with hn'
      subst hn'
      obtain ⟨h1, h2⟩ := hval hvar
      have := bitsNat_lt bs
      rw [h1] at this
      have h3 := Nat.mod_le (bitsNat bs % U64) (2 ^ w)
      have h4 := Nat.mod_le (bitsNat bs) U64
      omega
    · simp only [countsV, layoutV, writableV, Ty.fiOk, true_and]
      intro _ _ hf
      simp only [Bool.and_eq_true, decide_eq_true_eq, Bool.not_eq_true'] at hf
      obtain ⟨h1, h2⟩ := hval hf.1.1
      rw [hf.1.1]
      refine ⟨?_, rfl⟩
      have hlt := bitsNat_lt bs
      have h64 := Nat.pow_le_pow_right (n := 2) (by decide) (show bs.length ≤ 64 by omega)
      have hww := Nat.pow_le_pow_right (n := 2) (by decide) (show bs.length ≤ w by omega)
      have : n = bitsNat bs := by
        rw [h2, Nat.mod_eq_of_lt (show bitsNat bs < U64 by simp only [U64]; omega), Nat.mod_eq_of_lt (by omega)]
      rw [this, ← h1]
      simp only [Bool.false_eq_true, if_false]
      rw [natBits_bitsNat]
      exact SQ.refl _ _
  | .bool, e, rk, fi, cur, hed, hlc, hok, hloc, hsm, hb, hex, hn, hcp, hsane, hty, s, hw => by
    simp only [unmarshalV]
    rw [hed]
    refine (okp_bool hw).mono ?_
    intro bs v ⟨hl, out, hv, ho⟩
    subst hv
    refine ⟨by simp only [typedV], by simp, fun L hL => ?_⟩
    simp only [countsV, layoutV, writableV, Ty.fiOk, true_and]
    intro _ _ hf
    simp only [decide_eq_true_eq] at hf
    refine ⟨?_, by simp only [decide_eq_true_eq]; omega⟩
    have : bs = List.replicate fi.size (out.any (fun b => b != 0#8)) := by
      match bs, hl with
      | [], hl =>
        simp only [List.length_nil] at hl
        rw [← hl]; rfl
      | [b], hl =>
        simp only [List.length_cons, List.length_nil, Nat.zero_add] at hl
        rw [← hl] at ho ⊢
        have hlen := congrArg List.length ho
        rw [bytesBits_length] at hlen
        simp only [List.length_append, List.length_replicate, List.length_cons, List.length_nil] at hlen
        match out, hlen with
        | [c], _ =>
          rw [bytesBits_cons] at ho
          have hn := congrArg bitsNat ho
          simp only [bytesBits, List.append_nil, bitsNat_byteBits, bitsNat_append, bitsNat_replicate_false] at hn
          cases b
          · have : c = 0#8 := BitVec.eq_of_toNat_eq (by simpa [bitsNat] using hn)
            rw [this]; rfl
          · have : c = 1#8 := BitVec.eq_of_toNat_eq (by simpa [bitsNat] using hn)
            rw [this]; rfl
      | _ :: _ :: _, hl => simp only [List.length_cons] at hl; omega
    rw [this]
    exact SQ.refl _ _
  | .str, e, rk, fi, cur, hed, hlc, hok, hloc, hsm, hb, hex, hn, hcp, hsane, hty, s, hw => by
    simp only [unmarshalV]
    rw [hed]
    refine (OkPost.of_post (nh := True) (post_string hw hcp)).mono ?_
    intro bs v ⟨b, hv, hc⟩
    subst hv
    refine ⟨by simp only [typedV], by simp, fun L hL => ?_⟩
    simp only [countsV, layoutV, writableV, Ty.fiOk, true_and, and_true]
    intro _ _ hf
    rw [beq_iff_eq] at hf
    rw [hf]
    cases dir with
    | true =>
      simp only [Bool.not_true, Bool.false_eq_true, if_false]
      rcases hc.2 with h | ⟨h, _⟩
      · rw [h]; exact SQ.refl _ _
      · rw [h]
        refine ⟨by simp [cstring], fun h => ?_⟩
        simp [cstring] at h
    | false =>
      simp only [Bool.not_false, if_true]
      rcases hc.2 with h | ⟨h, _⟩
      · rw [h]
        refine ⟨by simp, fun h => ?_⟩
        simp at h
      · rw [h]; exact SQ.refl _ _
theorem sound_fields {d : Bytes} (hd : d.length ≤ maxAlloc) (q dir : Bool) (ex : List String) :
    ∀ (fs : Fields) (e : UEnv) (rk : List String) (c : Option Cfo) (all : Fields) (known : List String) (cur : SV),
      (∀ f t, (f, t) ∈ fs.toList → (f, t) ∈ all.toList) → all.names.Nodup → e.d = d → e.cfo.Local →
      (∀ n ∈ known, n ∉ fs.names) → (∀ c', c = some c' → c'.Local) → (∀ c', c = some c' → c'.SmallLen) →
      okFields e.cfo rk false .none c known fs = true → fs.AllLocal → fs.AllSmall → Fields.basic c all fs = true →
      (q = true → fs.exact dir ex c = true) → fs.nodup = true → typedFields all cur = true →
      ∀ s, s.r.WF d → OkPost d (fun bs sv => FQ q dir ex e rk c all fs cur bs sv) s (unmarshalFields e false c fs cur s)
  | .nil, e, rk, c, all, known, cur, hsub, hnd, hed, hlc, hkn, hcl, hcs, hok, hloc, hsm, hb, hex, hn, hty, s, hw => by
    simp only [unmarshalFields]
    refine OkPost.pure hw ⟨hty, fun _ _ => rfl, fun L hL => ?_⟩
    simp only [countsFields, layoutFields, writableFields]
    exact ⟨trivial, fun _ _ => ⟨SQ.refl _ _, trivial⟩⟩
  | .cons f t fs, e, rk, c, all, known, cur, hsub, hnd, hed, hlc, hkn, hcl, hcs, hok, hloc, hsm, hb, hex, hn, hty, s,
      hw => by
    simp only [okFields, Bool.false_and, Bool.not_false, Bool.true_or, Bool.and_true, Bool.false_eq_true, if_false] at hok
    simp only [Fields.AllLocal] at hloc
    simp only [Fields.AllSmall] at hsm
    simp only [Fields.basic] at hb
    simp only [Fields.exact] at hex
    simp only [Fields.nodup] at hn
    simp only [Bool.and_eq_true] at hok hb hn hex
    obtain ⟨⟨⟨⟨hdeps, hvers⟩, hfresh⟩, hokt⟩, hokf⟩ := hok
    obtain ⟨⟨⟨hcp, hlen⟩, hbt⟩, hbf⟩ := hb
    have hmem : (f, t) ∈ all.toList := hsub f t (by simp [Fields.toList])
    obtain ⟨x, hget, hxt⟩ := typed_get hnd hty hmem
    have hff : f.name ∉ fs.names := by simpa using hfresh
    cases hres : resolve (c.getD e.cfo) e.ctx (if c.isSome = true then cur else e.root) f with
    | none =>
      intro a s' hx
      simp only [unmarshalFields, Bool.false_eq_true, if_false] at hx
      rw [hres] at hx
      cases hx
    | some fi =>
      rw [unmarshalFields_nested e c f t fs cur s hres hget]
      obtain ⟨size, length, hfi, hs1, hs2, hl1, hl2⟩ := resolve_eta hres
      have hloc' : (c.getD e.cfo).Local := by
        cases hc : c with
        | none => exact hlc
        | some c' => exact hcl c' hc
      have hsane : Sane fi.length := by
        rw [hfi]
        simp only
        cases hld : f.lenDyn with
        | false =>
          rw [hld] at hlen
          simp only [Bool.false_eq_true, if_false, decide_eq_true_eq] at hlen
          rw [hl1 hld]
          exact Or.inl hlen
        | true =>
          rw [hld] at hlen
          simp only [if_true] at hlen
          cases hc : c with
          | none => rw [hc] at hlen; simp at hlen
          | some c' =>
            have h2 := hl2 hld
            rw [hc] at hlen h2
            simp only [Option.getD_some, Option.isSome_some, if_true] at hlen h2
            refine hcs c' hc f.name e.ctx cur length (fun m hm => ?_) h2
            exact small_num hty (List.all_eq_true.mp hlen m hm)
      have hcp' : fi.strCP = false := by rw [hfi]; simpa using hcp
      -- what the finished struct says about this field
      have hagree : ∀ L, Final L e rk → ∀ sv : SV, (∀ n, n ∉ (Fields.cons f t fs).names → sv.get n = cur.get n) →
          instField (c.getD L.cfo) L.ctx (if c.isSome = true then sv else L.root) f = fi ∧
          present (c.getD L.cfo) L.ctx L.root.version L.root.flags (if c.isSome = true then sv else L.root) fi =
            isTarget (c.getD e.cfo) e.ctx e.root (if c.isSome = true then cur else e.root) fi ∧
          (!f.sizeDyn || ((c.getD L.cfo).size f.name L.ctx (if c.isSome = true then sv else L.root)).isSome) = true ∧
          (!f.lenDyn || ((c.getD L.cfo).length f.name L.ctx (if c.isSome = true then sv else L.root)).isSome) = true := by
        intro L hL sv hkeep
        rw [isTarget_eq, hL.ctx, hL.cfo]
        have hst := step_agree (b := if c.isSome = true then sv else L.root) (v := e.root.version) (v' := L.root.version)
          (fl := e.root.flags) (fl' := L.root.flags) hloc' (by
            intro hdyn m hm
            rw [hdyn] at hdeps
            simp only [Bool.not_true, Bool.false_or] at hdeps
            have hmk := List.all_eq_true.mp hdeps m hm
            cases hc : c with
            | none =>
              rw [hc] at hmk
              simp only [Option.isSome_none, Bool.false_eq_true, if_false] at hmk ⊢
              exact (hL.root m (by simpa using hmk)).symm
            | some c' =>
              rw [hc] at hmk
              simp only [Option.isSome_some, if_true] at hmk ⊢
              exact (hkeep m (hkn m (by simpa using hmk))).symm) hres (by
            rw [Bool.or_eq_true] at hvers
            rcases hvers with h | h
            · left
              simp only [Bool.and_eq_true, beq_iff_eq] at h
              exact ⟨h.1.1.1, h.1.1.2, h.1.2, h.2⟩
            · right
              have := hL.root "FullBox" (by simpa using h)
              exact ⟨SV.version_congr this.symm, SV.flags_congr this.symm⟩)
        exact ⟨hst.1, hst.2.1.symm, hst.2.2⟩
      have hrec := fun cur' (hty' : typedFields all cur' = true) s (hw : s.r.WF d) =>
        sound_fields hd q dir ex fs e rk c all (f.name :: known) cur'
          (fun g u h => hsub g u (by simp [Fields.toList, h])) hnd hed hlc (by
            intro n hn
            simp only [List.mem_cons] at hn
            rcases hn with rfl | hn
            · exact hff
            · have := hkn n hn
              simp only [Fields.names, List.mem_cons, not_or] at this
              exact this.2) hcl hcs hokf hloc.2 hsm.2 hbf (fun hq => (hex hq).2) hn.2 hty' s hw
      by_cases htg : isTarget (c.getD e.cfo) e.ctx e.root (if c.isSome = true then cur else e.root) fi = true
      · rw [if_neg (by simp [htg])]
        refine OkPost.bind (sound_V hd q dir ex t e rk fi x hed hlc hokt hloc.1 hsm.1 hbt (fun hq => (hex hq).1.2)
          hn.1.2 hcp' hsane hxt s hw) ?_
        intro bs v s' ⟨hv1, hv2, hv3⟩ _ hw' _
        refine (hrec (cur.set f.name v) (typed_set hnd hty hmem hv1) s' hw').mono ?_
        intro bs' sv ⟨h1, h2, h3⟩
        have hkeep : ∀ n, n ∉ (Fields.cons f t fs).names → sv.get n = cur.get n := by
          intro n hn
          simp only [Fields.names, List.mem_cons, not_or] at hn
          rw [h2 n hn.2, SV.get_set_ne hn.1]
        have hgetv : sv.get f.name = some v := by
          rw [h2 _ hff, SV.get_set_eq (by rw [hget]; simp)]
        refine ⟨h1, hkeep, fun L hL => ?_⟩
        obtain ⟨a1, a2, a3, a4⟩ := hagree L hL sv hkeep
        rw [htg] at a2
        rw [countsFields_cons a1 a2, hgetv, layoutFields_cons a1 a2, hgetv, writableFields_cons a1 a2 a3 a4, hgetv]
        have h4 := hv3 L hL
        have h5 := h3 L hL
        simp only [Bool.not_true, Bool.false_or, if_true]
        rw [h4.1, h5.1]
        refine ⟨rfl, fun hq he => ?_⟩
        have hfo : t.fiOk dir fi = true := by
          have hfo := (hex hq).1.1
          cases hsd : f.sizeDyn with
          | false =>
            rw [hsd] at hfo
            simp only [Bool.false_eq_true, if_false] at hfo
            rw [hfi]
            exact fiOk_inst (f := f) (a := f.size) hfo (fun _ => by rw [hs1 hsd]; omega)
          | true =>
            rw [if_pos hsd, Bool.and_eq_true] at hfo
            rw [hfi]
            refine fiOk_inst (f := f) (a := 32) hfo.1 (fun hnum => ?_)
            have hfo2 := hfo.2
            rw [hnum] at hfo2
            simp only [Bool.not_true, Bool.false_or, Bool.and_eq_true] at hfo2
            have hc : c = none := by simpa using hfo2.1
            have ha1 := congrArg Field.size a1
            rw [hfi] at ha1
            simp only [instField, hsd, if_true] at ha1
            rw [hsd] at a3
            simp only [Bool.not_true, Bool.false_or] at a3
            obtain ⟨z, hz⟩ := Option.isSome_iff_exists.mp a3
            rw [hz] at ha1
            simp only [Option.getD_some] at ha1
            rw [← ha1]
            rw [hc] at hz
            exact he f.name (by simpa using hfo2.2) z hz
        have h6 := h4.2 hq he hfo
        have h7 := h5.2 hq he
        refine ⟨h6.1.append h7.1, ?_⟩
        rw [h6.2, h7.2]; rfl
      · rw [if_pos htg]
        refine (hrec cur hty s hw).mono ?_
        intro bs' sv ⟨h1, h2, h3⟩
        have hkeep : ∀ n, n ∉ (Fields.cons f t fs).names → sv.get n = cur.get n := by
          intro n hn
          simp only [Fields.names, List.mem_cons, not_or] at hn
          exact h2 n hn.2
        refine ⟨h1, hkeep, fun L hL => ?_⟩
        obtain ⟨a1, a2, a3, a4⟩ := hagree L hL sv hkeep
        rw [Bool.not_eq_true] at htg
        rw [htg] at a2
        rw [countsFields_cons a1 a2, layoutFields_cons a1 a2, writableFields_cons a1 a2 a3 a4]
        simp only [Bool.not_false, Bool.true_or, Bool.true_and, Bool.false_eq_true, if_false, List.nil_append]
        exact h3 L hL
end

end Mp4
