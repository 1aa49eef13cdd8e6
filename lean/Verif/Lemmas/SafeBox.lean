import Verif.Lemmas.Safe
import Verif.Lemmas.Total

/-!
# No run of `Unmarshal` panics, and what it returns has the right type
-/

namespace Mp4

open Spec

/-! ## conditions on types that can be checked by evaluation -/

/-- Is it made of numbers (or booleans), not of structs or strings? -/
def Ty.numeric : Ty → Bool
  | .uint _ => true
  | .int _ => true
  | .bool => true
  | .ptr t => t.numeric
  | .arr _ t => t.numeric
  | .slice t => t.numeric
  | _ => false

mutual
/-- Signed types have a sign bit, no string is in the "C or Pascal" form, sizes of numbers are fixed (except those of the
fields `ex`, which are given by the methods of the box). -/
def Ty.plain (ex : List String) : Ty → Bool
  | .int w => decide (0 < w)
  | .ptr t => t.plain ex
  | .arr _ t => t.plain ex
  | .slice t => t.plain ex
  | .struct c fs => fs.plain ex c
  | _ => true
/-- the same for fields -/
def Fields.plain (ex : List String) (c : Option Cfo) : Fields → Bool
  | .nil => true
  | .cons f t fs =>
    !f.strCP && (!t.numeric || (!f.sizeDyn && decide (f.size ≤ 1000)) || (f.sizeDyn && c.isNone && ex.contains f.name)) &&
      t.plain ex && fs.plain ex c
end

mutual
/-- Decoding a value, if it succeeds, consumes something. -/
def Ty.prog : Ty → Bool
  | .uint _ => true
  | .int _ => true
  | .bool => true
  | .ptr t => t.prog
  | .arr n t => decide (0 < n) && t.prog
  | .struct _ fs => fs.prog
  | _ => false
/-- Decoding the fields, if it succeeds, consumes something. -/
def Fields.prog : Fields → Bool
  | .nil => false
  | .cons f t fs => (f.uncond && t.prog) || fs.prog
end

mutual
/-- Decoding an element of a list without a given length (`unl`: this may be such a list) consumes something. -/
def Ty.greedyOk (unl : Bool) : Ty → Bool
  | .ptr t => t.greedyOk unl
  | .arr _ t => t.greedyOk unl
  | .slice t => (!unl || t.prog) && t.greedyOk unl
  | .struct _ fs => fs.greedyOk
  | _ => true
/-- the same for fields -/
def Fields.greedyOk : Fields → Bool
  | .nil => true
  | .cons f t fs => t.greedyOk (f.lenDyn || f.length == lengthUnlimited) && fs.greedyOk
end

theorem Ty.greedyOk_weaken {b b' : Bool} (hb : b' = true → b = true) : ∀ (t : Ty), t.greedyOk b = true → t.greedyOk b' = true
  | .ptr t, h => by simp only [Ty.greedyOk] at h ⊢; exact t.greedyOk_weaken hb h
  | .arr _ t, h => by simp only [Ty.greedyOk] at h ⊢; exact t.greedyOk_weaken hb h
  | .slice t, h => by
    simp only [Ty.greedyOk] at h ⊢
    rw [Bool.and_eq_true] at h ⊢
    refine ⟨?_, t.greedyOk_weaken hb h.2⟩
    cases b' with
    | false => rfl
    | true => rw [hb rfl] at h; exact h.1
  | .struct _ fs, h => by simp only [Ty.greedyOk] at h ⊢; exact h
  | .uint _, _ => by simp [Ty.greedyOk]
  | .int _, _ => by simp [Ty.greedyOk]
  | .bool, _ => by simp [Ty.greedyOk]
  | .str, _ => by simp [Ty.greedyOk]

/-! ## typed values -/

theorem names_of_mem {f : Field} {t : Ty} : ∀ {fs : Fields}, (f, t) ∈ fs.toList → f.name ∈ fs.names
  | .nil, h => by simp [Fields.toList] at h
  | .cons g u fs, h => by
    simp only [Fields.toList, List.mem_cons, Prod.mk.injEq] at h
    simp only [Fields.names, List.mem_cons]
    rcases h with ⟨rfl, rfl⟩ | h
    · exact Or.inl rfl
    · exact Or.inr (names_of_mem h)

theorem typed_get {f : Field} {t : Ty} : ∀ {fs : Fields} {sv : SV}, fs.names.Nodup → typedFields fs sv = true →
    (f, t) ∈ fs.toList → ∃ v, sv.get f.name = some v ∧ typedV t v = true
  | .nil, sv, _, _, hm => by simp [Fields.toList] at hm
  | .cons g u fs, [], _, h, _ => by simp [typedFields] at h
  | .cons g u fs, (n, v) :: rest, hnd, h, hm => by
    simp only [typedFields] at h
    rw [Bool.and_eq_true, Bool.and_eq_true, beq_iff_eq] at h
    obtain ⟨⟨rfl, hv⟩, hr⟩ := h
    simp only [Fields.names, List.nodup_cons] at hnd
    simp only [Fields.toList, List.mem_cons, Prod.mk.injEq] at hm
    rcases hm with ⟨rfl, rfl⟩ | hm
    · exact ⟨v, by simp [SV.get], hv⟩
    · have hne : g.name ≠ f.name := fun h => hnd.1 (h ▸ names_of_mem hm)
      simp only [SV.get, if_neg hne]
      exact typed_get hnd.2 hr hm

theorem typed_set {f : Field} {t : Ty} {x : Val} : ∀ {fs : Fields} {sv : SV}, fs.names.Nodup →
    typedFields fs sv = true → (f, t) ∈ fs.toList → typedV t x = true → typedFields fs (sv.set f.name x) = true
  | .nil, sv, _, _, hm, _ => by simp [Fields.toList] at hm
  | .cons g u fs, [], _, h, _, _ => by simp [typedFields] at h
  | .cons g u fs, (n, v) :: rest, hnd, h, hm, hx => by
    simp only [typedFields] at h
    rw [Bool.and_eq_true, Bool.and_eq_true, beq_iff_eq] at h
    obtain ⟨⟨rfl, hv⟩, hr⟩ := h
    simp only [Fields.names, List.nodup_cons] at hnd
    simp only [Fields.toList, List.mem_cons, Prod.mk.injEq] at hm
    rcases hm with ⟨rfl, rfl⟩ | hm
    · simp only [SV.set, if_true, typedFields]
      rw [hx, hr]
      simp
    · have hne : g.name ≠ f.name := fun h => hnd.1 (h ▸ names_of_mem hm)
      simp only [SV.set, if_neg hne, typedFields]
      rw [hv, typed_set hnd.2 hr hm hx]
      simp

mutual
theorem zero_typed : ∀ t : Ty, typedV t t.zero = true
  | .uint w => by simp [Ty.zero, typedV, Nat.two_pow_pos]
  | .int w => by
    simp only [Ty.zero, typedV, decide_eq_true_eq]
    have : (0 : Int) < ((2 ^ (w - 1) : Nat) : Int) := by
      have := Nat.two_pow_pos (w - 1)
      omega
    omega
  | .bool => by simp [Ty.zero, typedV]
  | .str => by simp [Ty.zero, typedV]
  | .ptr t => by simp [Ty.zero, typedV]
  | .arr n t => by
    simp only [Ty.zero, typedV, List.length_replicate, beq_self_eq_true, Bool.true_and, List.all_eq_true]
    intro x hx
    rw [(List.mem_replicate.mp hx).2]
    exact zero_typed t
  | .slice t => by simp [Ty.zero, typedV]
  | .struct _ fs => by simp only [Ty.zero, typedV]; exact zero_typedFields fs
theorem zero_typedFields : ∀ fs : Fields, typedFields fs fs.zero = true
  | .nil => by simp [Fields.zero, typedFields]
  | .cons f t fs => by
    simp only [Fields.zero, typedFields]
    rw [zero_typed t, zero_typedFields fs]
    simp
end

/-! ## resolving -/

theorem resolve_eta {c : Cfo} {ctx : Ctx} {csv : SV} {f fi : Field} (h : resolve c ctx csv f = some fi) :
    ∃ size length, fi = { f with size := size, length := length } ∧ (f.sizeDyn = false → size = f.size) ∧
      (f.sizeDyn = true → c.size f.name ctx csv = some size) ∧ (f.lenDyn = false → length = f.length) ∧
      (f.lenDyn = true → c.length f.name ctx csv = some length) := by
  unfold resolve at h
  cases hsd : f.sizeDyn <;> cases hld : f.lenDyn <;>
    simp only [hsd, hld, Bool.false_eq_true, if_false, if_true, Option.bind_eq_bind, Option.bind_some,
      Option.some.injEq] at h
  · exact ⟨_, _, h.symm, by simp, by simp, by simp, by simp⟩
  · cases hc : c.length f.name ctx csv <;> rw [hc] at h <;> simp at h
    exact ⟨_, _, h.symm, by simp, by simp, by simp, by simp⟩
  · cases hc : c.size f.name ctx csv <;> rw [hc] at h <;> simp at h
    exact ⟨_, _, h.symm, by simp, by simp, by simp, by simp⟩
  · cases hc : c.size f.name ctx csv <;> rw [hc] at h <;> simp at h
    cases hc' : c.length f.name ctx csv <;> rw [hc'] at h <;> simp at h
    exact ⟨_, _, h.symm, by simp, by simp, by simp, by simp⟩

theorem resolve_some {c : Cfo} {ctx : Ctx} {csv : SV} {f : Field}
    (hs : f.sizeDyn = true → (c.size f.name ctx csv).isSome = true)
    (hl : f.lenDyn = true → (c.length f.name ctx csv).isSome = true) : ∃ fi, resolve c ctx csv f = some fi := by
  unfold resolve
  cases hsd : f.sizeDyn <;> cases hld : f.lenDyn <;>
    simp only [Bool.false_eq_true, if_false, if_true, Option.bind_eq_bind, Option.bind_some]
  · exact ⟨_, rfl⟩
  · obtain ⟨x, hx⟩ := Option.isSome_iff_exists.mp (hl hld)
    exact ⟨_, by rw [hx]; rfl⟩
  · obtain ⟨x, hx⟩ := Option.isSome_iff_exists.mp (hs hsd)
    exact ⟨_, by rw [hx]; rfl⟩
  · obtain ⟨x, hx⟩ := Option.isSome_iff_exists.mp (hs hsd)
    obtain ⟨y, hy⟩ := Option.isSome_iff_exists.mp (hl hld)
    exact ⟨_, by rw [hx, hy]; rfl⟩

/-! ## unfolding -/

theorem unmarshalFields_nested (e : UEnv) (c : Option Cfo) (f : Field) (t : Ty) (fs : Fields) (cur : SV) (s : USt)
    {fi : Field} {x : Val} (hres : resolve (c.getD e.cfo) e.ctx (if c.isSome then cur else e.root) f = some fi)
    (hx : cur.get f.name = some x) :
    unmarshalFields e false c (.cons f t fs) cur s =
      if ¬ isTarget (c.getD e.cfo) e.ctx e.root (if c.isSome then cur else e.root) fi then
        unmarshalFields e false c fs cur s
      else (unmarshalV e t fi x >>= fun v => unmarshalFields e false c fs (cur.set f.name v)) s := by
  simp only [unmarshalFields, Bool.false_eq_true, if_false, false_and]
  rw [hres]
  simp only
  generalize (if c.isSome = true then cur else e.root) = csv
  by_cases hc : ¬ isTarget (c.getD e.cfo) e.ctx e.root csv fi = true
  · rw [if_pos hc, if_pos hc]
  · rw [if_neg hc, if_neg hc]
    rw [M.bind_run, M.get_run]
    simp only
    rw [M.bind_run]
    simp only [M.pure_run]
    rw [M.bind_run]
    simp only [addR, M.modify_run, Nat.add_zero, hx]
    rfl

/-- what follows the hook when a field of the box is decoded -/
def afterHook (e : UEnv) (c : Option Cfo) (f : Field) (t : Ty) (fs : Fields) (fi : Field) (ov : Bool) (cur : SV) :
    UM SV :=
  if ov then unmarshalFields e true c fs cur
  else
    match cur.get f.name with
    | none => M.panic
    | some x => do
      let v ← unmarshalV { e with root := cur } t fi x
      if f.name = "FullBox" ∧ ¬ e.supported (cur.set f.name v).version then M.fail .unsupportedVersion
      else unmarshalFields e true c fs (cur.set f.name v)

/-- calling the hook -/
def runHook {α : Type} (h : Hook) (d : Bytes) (name : String) (size8 : Nat) (cur : SV) (k : Bool → SV → UM α) : UM α :=
  do
    let s ← M.get
    let x ← liftR (onRead h d name (left size8 s.rbits) cur)
    addR x.1
    k x.2.1 x.2.2

theorem unmarshalFields_top (e : UEnv) (c : Option Cfo) (f : Field) (t : Ty) (fs : Fields) (cur : SV) (s : USt)
    {fi : Field} (hres : resolve (c.getD e.cfo) e.ctx cur f = some fi) :
    unmarshalFields e true c (.cons f t fs) cur s =
      if ¬ isTarget (c.getD e.cfo) e.ctx cur cur fi then unmarshalFields e true c fs cur s
      else runHook e.hook e.d f.name e.size8 cur (fun ov cur' => afterHook e c f t fs fi ov cur') s := by
  simp only [unmarshalFields, if_true, true_and, ite_self]
  rw [hres]
  simp only
  split
  · rfl
  · rfl

/-! ## the hooks -/

/-- What a hook of the box does before the field `name` is decoded: it consumes bits and changes the box; the flag
says that the field itself is skipped. -/
inductive HookRes (h : Hook) (name : String) (lft : Nat) (cur : SV) : List Bool → Bool → SV → Prop
  | same (hn : ¬ (h = .emsg ∧ cur.version ≠ 0 ∧ (name = "SchemeIdUri" ∨ name = "Value" ∨ name = "MessageData")) ∧
      ¬ (h = .hdlr ∧ name = "Name") ∧ ¬ (h = .avcc ∧ name = "HighProfileFieldsEnabled")) :
      HookRes h name lft cur [] false cur
  | emsgSkip (he : h = .emsg) (hv : cur.version ≠ 0) (hn : name = "SchemeIdUri" ∨ name = "Value") :
      HookRes h name lft cur [] true cur
  | emsgText (he : h = .emsg) (hv : cur.version ≠ 0) (hn : name = "MessageData") (a b : Bytes)
      (ha : noNul a = true) (hb : noNul b = true) :
      HookRes h name lft cur (cstring a ++ cstring b) false
        ((cur.set "SchemeIdUri" (.str a)).set "Value" (.str b))
  | hdlrEmpty (he : h = .hdlr) (hn : name = "Name") (hl : lft < 8) :
      HookRes h name lft cur [] true (cur.set "Name" (.str []))
  | hdlrName (he : h = .hdlr) (hn : name = "Name") (buf : Bytes) (hl : lft = 8 * buf.length) (hb : buf ≠ []) :
      HookRes h name lft cur (bytesBits buf) true (cur.set "Name" (.str
        (if cur.uint "PreDefined" ≠ 0 ∧ 2 ≤ buf.length ∧ buf.length = ((buf.headD 0#8).toNat + 1) % 256 then
          (buf.drop 1).take (buf.headD 0#8).toNat else buf.takeWhile (fun c => c != 0#8))))
  | avcc (he : h = .avcc) (hn : name = "HighProfileFieldsEnabled") :
      HookRes h name lft cur [] true (cur.set "HighProfileFieldsEnabled"
        (.bool (decide (32 ≤ lft) && avccHigh (cur.uint "Profile"))))

section
variable {α : Type} {d : Bytes} {nh : Prop}

/-- outcome of reading a string that ends with a NUL -/
def RPost {α : Type} (d : Bytes) (Q : List Bool → α → Prop) (r : RSt) : Out α × RSt → Prop
  | (.ok a, r') => ∃ bs, r.rem d = bs ++ r'.rem d ∧ r'.WF d ∧ Q bs a
  | (.err _, _) => True
  | (.panic, _) => False
  | (.hang, _) => False

theorem readStringZ_post : ∀ (fuel : Nat) (r : RSt), r.WF d → d.length < fuel + r.pos →
    RPost d (fun bs a => noNul a = true ∧ bs = cstring a) r (readStringZ d fuel r)
  | 0, r, hw, hf => by
    have := hw.pos
    omega
  | fuel + 1, r, hw, hf => by
    unfold readStringZ
    rw [M.bind_run]
    unfold readSome
    by_cases h0 : r.width ≠ 0
    · rw [if_pos h0]; trivial
    · rw [if_neg h0]
      by_cases hl : d.length ≤ r.pos
      · rw [if_pos hl]; trivial
      · rw [if_neg hl]
        have hlt : r.pos < d.length := by omega
        have hgot : (d.drop r.pos).take 1 = [d[r.pos]] := by
          rw [List.drop_eq_getElem_cons hlt]; rfl
        simp only [hgot, List.headD_cons, List.length_cons, List.length_nil]
        have h0' : r.width = 0 := by omega
        have hadv := rem_advance (d := d) (n := 1) h0' (by omega)
        rw [hgot] at hadv
        have hw1 : RSt.WF d ({ r with pos := r.pos + 1 } : RSt) := ⟨hw.width, hlt⟩
        by_cases hz : d[r.pos] = 0#8
        · rw [if_pos hz]
          refine ⟨_, hadv, hw1, rfl, ?_⟩
          rw [hz]; rfl
        · rw [if_neg hz, M.bind_run]
          have ih := readStringZ_post fuel { r with pos := r.pos + 1 } hw1 (by simp only; omega)
          cases hr : readStringZ d fuel { r with pos := r.pos + 1 } with
          | mk o r2 =>
            rw [hr] at ih
            match o, ih with
            | .ok a, ⟨bs, e1, w1, q1, q2⟩ =>
              refine ⟨bytesBits [d[r.pos]] ++ bs, ?_, w1, ?_, ?_⟩
              · rw [hadv, e1, List.append_assoc]
              · unfold noNul at q1 ⊢
                simp only [List.all_cons, Bool.and_eq_true]
                exact ⟨by simpa using hz, q1⟩
              · rw [q2]
                simp [cstring]
            | .err _, _ => trivial
            | .panic, h => exact h.elim
            | .hang, h => exact h.elim

theorem left_mod (size8 rbits : Nat) (h : size8 % 8 = 0) (hr : rbits % 8 = 0) : left size8 rbits % 8 = 0 := by
  unfold left sub64
  simp only [U64]
  omega

theorem post_runHook {Q : List Bool → α → Prop} {h : Hook} {name : String} {size8 : Nat} {cur : SV}
    {k : Bool → SV → UM α} {s : USt} (hw : s.r.WF d) (hd : d.length ≤ maxAlloc)
    (hal : (s.rbits + (s.r.rem d).length) % 8 = 0) (h8 : size8 % 8 = 0)
    (hk : ∀ bs ov cur' s', HookRes h name (left size8 s.rbits) cur bs ov cur' → s.r.rem d = bs ++ s'.r.rem d →
      s'.r.WF d → s'.rbits = s.rbits + bs.length → Post d nh (fun bs' b => Q (bs ++ bs') b) s' (k ov cur' s')) :
    Post d nh Q s (runHook h d name size8 cur k s) := by
  unfold runHook
  apply Post.get
  -- enough: what `onRead` does
  suffices hx : ∀ r, onRead h d name (left size8 s.rbits) cur s.r = r → RPost d (fun bs x =>
      x.1 = bs.length ∧ HookRes h name (left size8 s.rbits) cur bs x.2.1 x.2.2) s.r r by
    have := hx _ rfl
    rw [M.bind_run]
    unfold liftR
    cases hr : onRead h d name (left size8 s.rbits) cur s.r with
    | mk o r' =>
      rw [hr] at this
      match o, this with
      | .ok x, ⟨bs, e1, w1, q1, q2⟩ =>
        simp only
        rw [M.bind_run]
        simp only [addR, M.modify_run]
        have hp := hk bs x.2.1 x.2.2 ⟨r', s.rbits + x.1⟩ q2 e1 w1 (by rw [q1])
        cases hkk : k x.2.1 x.2.2 ⟨r', s.rbits + x.1⟩ with
        | mk o2 s2 =>
          rw [hkk] at hp
          match o2, hp with
          | .ok b, ⟨bs2, e2, w2, c2, q3⟩ =>
            exact ⟨bs ++ bs2, by rw [e1, List.append_assoc, ← e2], w2, by
              simp only at c2
              rw [c2, q1, List.length_append]; omega, q3⟩
          | .err _, _ => trivial
          | .panic, h => exact h.elim
          | .hang, h => exact h
      | .err _, _ => trivial
      | .panic, h => exact h.elim
      | .hang, h => exact h.elim
  intro r hr
  subst hr
  have hsame : ∀ (x : Nat × Bool × SV), x = (0, false, cur) →
      (¬ (h = .emsg ∧ cur.version ≠ 0 ∧ (name = "SchemeIdUri" ∨ name = "Value" ∨ name = "MessageData")) ∧
      ¬ (h = .hdlr ∧ name = "Name") ∧ ¬ (h = .avcc ∧ name = "HighProfileFieldsEnabled")) →
      RPost d (fun bs x => x.1 = bs.length ∧ HookRes h name (left size8 s.rbits) cur bs x.2.1 x.2.2) s.r
        ((Pure.pure x : RM (Nat × Bool × SV)) s.r) := by
    intro x hx hn
    subst hx
    exact ⟨[], by simp, hw, rfl, HookRes.same hn⟩
  cases h with
  | none => exact hsame _ rfl (by simp)
  | avcc =>
    simp only [onRead]
    split
    · next hn => exact ⟨[], by simp, hw, rfl, HookRes.avcc rfl hn⟩
    · next hn => exact hsame _ rfl (by simp [hn])
  | emsg =>
    simp only [onRead]
    split
    · next hv => exact hsame _ rfl (by simp [hv])
    · next hv =>
      split
      · next hn => exact ⟨[], by simp, hw, rfl, HookRes.emsgSkip rfl hv hn⟩
      · next hn =>
        split
        · next hm =>
          rw [M.bind_run]
          have h1 := readStringZ_post (d := d) (d.length + 2) s.r hw (by omega)
          cases hr1 : readStringZ d (d.length + 2) s.r with
          | mk o1 r1 =>
            rw [hr1] at h1
            match o1, h1 with
            | .ok a, ⟨b1, e1, w1, n1, q1⟩ =>
              simp only
              rw [M.bind_run]
              have h2 := readStringZ_post (d := d) (d.length + 2) r1 w1 (by omega)
              cases hr2 : readStringZ d (d.length + 2) r1 with
              | mk o2 r2 =>
                rw [hr2] at h2
                match o2, h2 with
                | .ok b, ⟨b2, e2, w2, n2, q2⟩ =>
                  refine ⟨b1 ++ b2, by rw [e1, e2, List.append_assoc], w2, ?_, ?_⟩
                  · rw [q1, q2]
                    simp [cstring]
                    omega
                  · rw [q1, q2]
                    exact HookRes.emsgText rfl hv hm a b n1 n2
                | .err _, _ => trivial
                | .panic, h => exact h.elim
                | .hang, h => exact h.elim
            | .err _, _ => trivial
            | .panic, h => exact h.elim
            | .hang, h => exact h.elim
        · next hm =>
          refine hsame _ rfl ⟨?_, by simp, by simp⟩
          rintro ⟨_, _, h | h | h⟩
          · exact hn (Or.inl h)
          · exact hn (Or.inr h)
          · exact hm h
  | hdlr =>
    simp only [onRead]
    split
    · next hn =>
      unfold hdlrOnReadName
      simp only
      split
      · next hz => exact ⟨[], by simp, hw, rfl, HookRes.hdlrEmpty rfl hn (by omega)⟩
      · next hz =>
        rw [M.bind_run]
        by_cases h0 : s.r.width = 0
        · by_cases hsz : s.r.pos + left size8 s.rbits / 8 ≤ d.length
          · rw [readerHasSize_ok h0 hsz (by simp only [maxAlloc, U64] at *; omega)]
            simp only [not_true_eq_false, if_false]
            rw [if_neg (by simp only [maxAlloc] at *; omega), M.bind_run]
            have hlen : ((d.drop s.r.pos).take (left size8 s.rbits / 8)).length = left size8 s.rbits / 8 := by
              rw [List.length_take, List.length_drop]; omega
            have hrf : readFull d (left size8 s.rbits / 8) s.r = (.ok ((d.drop s.r.pos).take (left size8 s.rbits / 8)),
                { s.r with pos := s.r.pos + left size8 s.rbits / 8 }) := by
              unfold readFull
              rw [if_neg hz, if_neg (by simp [h0])]
              simp only [hlen]
              rw [if_neg hz, if_neg (by omega)]
            rw [hrf]
            simp only
            have hmod : left size8 s.rbits % 8 = 0 := by
              apply left_mod _ _ h8
              rw [RSt.rem_length, h0] at hal
              omega
            have hne : (d.drop s.r.pos).take (left size8 s.rbits / 8) ≠ [] := by
              intro h
              rw [h] at hlen
              simp only [List.length_nil] at hlen
              omega
            have hres := HookRes.hdlrName (h := .hdlr) (name := name) (lft := left size8 s.rbits) (cur := cur) rfl hn
              ((d.drop s.r.pos).take (left size8 s.rbits / 8)) (by rw [hlen]; omega) hne
            rw [hlen] at hres
            have hcnt : left size8 s.rbits = (bytesBits ((d.drop s.r.pos).take (left size8 s.rbits / 8))).length := by
              rw [bytesBits_length, hlen]; omega
            split
            · next hc =>
              rw [if_pos hc] at hres
              exact ⟨_, rem_advance h0 hsz, ⟨hw.width, hsz⟩, hcnt, hres⟩
            · next hc =>
              rw [if_neg hc] at hres
              exact ⟨_, rem_advance h0 hsz, ⟨hw.width, hsz⟩, hcnt, hres⟩
          · have hlt : sub64 d.length s.r.pos < left size8 s.rbits / 8 := by
              have := hw.pos
              unfold sub64
              simp only [U64, maxAlloc] at *
              omega
            have : ∃ r', readerHasSize d (left size8 s.rbits / 8) s.r = (.ok false, r') := by
              unfold readerHasSize seekCurrent
              simp only [h0, ne_eq, not_true_eq_false, if_false, seekEnd, hlt, if_true]
              exact ⟨_, rfl⟩
            obtain ⟨r', hr'⟩ := this
            rw [hr']
            trivial
        · have : readerHasSize d (left size8 s.rbits / 8) s.r = (.ok false, s.r) := by
            unfold readerHasSize seekCurrent
            simp [h0]
          rw [this]
          trivial
    · next hn => exact hsame _ rfl (by simp [hn])

/-! ## structs with a size -/

theorem post_structInternal {Q : List Bool → α → Prop} {size8 : Nat} {fi : Field} {m : Nat → UM α} {s : USt}
    (h : ∀ size8 s', s'.r = s.r → Post d nh Q s' (m size8 s')) : Post d nh Q s (structInternal size8 fi m s) := by
  unfold structInternal
  split
  · unfold sizedStruct
    have := h (fi.size % U64) { s with rbits := 0 } rfl
    cases hm : m (fi.size % U64) { s with rbits := 0 } with
    | mk o s' =>
      rw [hm] at this
      match o, this with
      | .ok a, ⟨bs, e1, w1, c1, q1⟩ =>
        simp only
        split
        · trivial
        · simp only [Nat.zero_add] at c1
          exact ⟨bs, e1, w1, by simp only; omega, q1⟩
      | .err _, _ => trivial
      | .panic, h => exact h.elim
      | .hang, h => exact h
  · exact h size8 s rfl

end

/-! ## the induction -/

/-- the values in a list all have the type -/
theorem all_of_zip {R : List Bool → Val → Prop} {l : List Val} {bss : List (List Bool)} (hl : bss.length = l.length)
    (h : ∀ p ∈ bss.zip l, R p.1 p.2) {P : Val → Prop} (hR : ∀ bs v, R bs v → P v) : ∀ v ∈ l, P v := by
  intro v hv
  obtain ⟨i, hi, rfl⟩ := List.mem_iff_getElem.mp hv
  have : (bss[i]'(by omega), l[i]) ∈ bss.zip l := by
    rw [List.mem_iff_getElem]
    exact ⟨i, by rw [List.length_zip]; omega, by rw [List.getElem_zip]⟩
  exact hR _ _ (h _ this)

mutual
theorem safe_V {d : Bytes} (hd : d.length ≤ maxAlloc) (nh : Prop) (ok : SV → Prop) (ex : List String) :
    ∀ (t : Ty) (e : UEnv) (fi : Field) (cur : Val), e.d = d → ok e.root →
      (∀ n ∈ ex, ∀ z, e.cfo.size n e.ctx e.root = some z → z ≤ 8 * maxAlloc) →
      t.Total e.cfo ok → t.plain ex = true → t.nodup = true → (nh → t.greedyOk (fi.length == lengthUnlimited) = true) →
      (t.numeric = true → fi.size ≤ 8 * maxAlloc) → fi.strCP = false → typedV t cur = true →
      ∀ s, s.r.WF d → Post d nh (fun bs v => typedV t v = true ∧ (t.prog = true → 1 ≤ bs.length)) s
        (unmarshalV e t fi cur s)
  | .ptr t, e, fi, cur, hed, hroot, hex, ht, hp, hn, hg, hnum, hcp, hty, s, hw => by
    simp only [Ty.Total] at ht
    simp only [Ty.plain] at hp
    simp only [Ty.nodup] at hn
    simp only [Ty.greedyOk] at hg
    simp only [Ty.numeric] at hnum
    simp only [unmarshalV]
    refine Post.map (g := fun v => Val.ptr (some v)) ?_
    refine (safe_V hd nh ok ex t e fi t.zero hed hroot hex ht hp hn hg hnum hcp (zero_typed t) s hw).mono ?_
    intro bs v ⟨h1, h2⟩
    simp only [typedV, Ty.prog]
    exact ⟨h1, h2⟩
  | .struct c fs, e, fi, cur, hed, hroot, hex, ht, hp, hn, hg, hnum, hcp, hty, s, hw => by
    simp only [Ty.Total] at ht
    simp only [Ty.plain] at hp
    simp only [Ty.nodup] at hn
    simp only [Ty.greedyOk] at hg
    cases cur with
    | struct sv =>
      simp only [typedV] at hty
      simp only [unmarshalV]
      apply post_structInternal
      intro size8 s' hs'
      refine Post.map (g := fun v => Val.struct v) ?_
      refine (safe_fields hd nh ok ex fs { e with size8 := size8 } c fs sv (fun _ _ h => h)
        (Fields.nodup_names fs hn) hed hroot hex ht hp hn hg hty s' (by rw [hs']; exact hw)).mono ?_
      intro bs v ⟨h1, h2⟩
      simp only [typedV, Ty.prog]
      exact ⟨h1, h2⟩
    | uint _ => simp [typedV] at hty
    | int _ => simp [typedV] at hty
    | bool _ => simp [typedV] at hty
    | str _ => simp [typedV] at hty
    | ptr _ => simp [typedV] at hty
    | arr _ => simp [typedV] at hty
    | slice _ => simp [typedV] at hty
  | .arr n t, e, fi, cur, hed, hroot, hex, ht, hp, hn, hg, hnum, hcp, hty, s, hw => by
    simp only [Ty.Total] at ht
    simp only [Ty.plain] at hp
    simp only [Ty.nodup] at hn
    simp only [Ty.greedyOk] at hg
    simp only [Ty.numeric] at hnum
    cases cur with
    | arr l =>
      simp only [typedV] at hty
      rw [Bool.and_eq_true, beq_iff_eq] at hty
      simp only [unmarshalV]
      refine Post.map (g := fun v => Val.arr v) ?_
      refine (post_arrLoop (P := fun x => typedV t x = true)
        (R := fun bs v => typedV t v = true ∧ (t.prog = true → 1 ≤ bs.length)) l s hw (List.all_eq_true.mp hty.2)
        (fun x s hx hw => safe_V hd nh ok ex t e fi x hed hroot hex ht hp hn hg hnum hcp hx s hw)).mono ?_
      intro bs l' ⟨h1, bss, h2, h3, h4⟩
      simp only [typedV, Ty.prog]
      refine ⟨?_, ?_⟩
      · rw [Bool.and_eq_true, beq_iff_eq]
        exact ⟨h1.trans hty.1, List.all_eq_true.mpr (all_of_zip (R := fun bs v => typedV t v = true ∧ (t.prog = true → 1 ≤ bs.length)) h2 h4 (fun _ _ h => h.1))⟩
      · intro hpr
        rw [Bool.and_eq_true, decide_eq_true_eq] at hpr
        cases bss with
        | nil => simp only [List.length_nil] at h2; omega
        | cons b bss' =>
          cases l' with
          | nil => simp at h2
          | cons v l'' =>
            have := (h4 (b, v) (by simp)).2 hpr.2
            simp only at this
            rw [h3, List.flatten_cons, List.length_append]
            omega
    | uint _ => simp [typedV] at hty
    | int _ => simp [typedV] at hty
    | bool _ => simp [typedV] at hty
    | str _ => simp [typedV] at hty
    | ptr _ => simp [typedV] at hty
    | struct _ => simp [typedV] at hty
    | slice _ => simp [typedV] at hty
  | .slice t, e, fi, cur, hed, hroot, hex, ht, hp, hn, hg, hnum, hcp, hty, s, hw => by
    simp only [Ty.Total] at ht
    simp only [Ty.plain] at hp
    simp only [Ty.nodup] at hn
    simp only [Ty.greedyOk] at hg
    simp only [Ty.numeric] at hnum
    simp only [unmarshalV]
    unfold unmarshalSlice
    apply Post.get
    simp only
    split
    · exact Post.fail _
    · generalize (if fi.length = lengthUnlimited then
        (if fi.size ≠ 0 then left e.size8 s.rbits / fi.size else 0) else fi.length) = len
      have hel : ∀ s, s.r.WF d → Post d nh (fun bs v => typedV t v = true ∧ (t.prog = true → 1 ≤ bs.length)) s
          (unmarshalV e t fi t.zero s) := fun s hw =>
        safe_V hd nh ok ex t e fi t.zero hed hroot hex ht hp hn
          (fun h => by have := hg h; rw [Bool.and_eq_true] at this; exact this.2) hnum hcp (zero_typed t) s hw
      split
      · next hc =>
        rw [hed]
        refine (post_byteSlice hw hd).mono ?_
        intro bs v ⟨p, hv, _, _⟩
        subst hv
        refine ⟨?_, by simp [Ty.prog]⟩
        have hbyte : t = .uint 8 := by
          cases t with
          | uint w =>
            have := hc.2.1
            unfold Ty.isByte at this
            split at this
            · assumption
            · cases this
          | _ => simp [Ty.isByte] at hc
        subst hbyte
        simp only [typedV, List.all_map, List.all_eq_true, Function.comp_apply, decide_eq_true_eq]
        intro x _
        exact x.isLt
      · split
        · next hul =>
          refine Post.map (g := fun v => Val.slice v) ?_
          refine (post_greedyLoop (R := fun bs v => typedV t v = true ∧ (t.prog = true → 1 ≤ bs.length)) ?_ _ s hw ?_
            hel).mono ?_
          · intro hh bs v hR
            have := hg hh
            rw [Bool.and_eq_true, hul] at this
            exact hR.2 (by simpa using this.1)
          · intro _
            omega
          · intro bs l' ⟨_, bss, h2, _, h4⟩
            simp only [typedV]
            exact ⟨List.all_eq_true.mpr (all_of_zip (R := fun bs v => typedV t v = true ∧ (t.prog = true → 1 ≤ bs.length)) h2 h4 (fun _ _ h => h.1)), by simp [Ty.prog]⟩
        · refine Post.map (g := fun v => Val.slice v) ?_
          refine (post_countLoop (R := fun bs v => typedV t v = true ∧ (t.prog = true → 1 ≤ bs.length)) _ s hw
            hel).mono ?_
          intro bs l' ⟨_, bss, h2, _, h4⟩
          simp only [typedV]
          exact ⟨List.all_eq_true.mpr (all_of_zip (R := fun bs v => typedV t v = true ∧ (t.prog = true → 1 ≤ bs.length)) h2 h4 (fun _ _ h => h.1)), by simp [Ty.prog]⟩
  | .int w, e, fi, cur, hed, hroot, hex, ht, hp, hn, hg, hnum, hcp, hty, s, hw => by
    simp only [Ty.plain, decide_eq_true_eq] at hp
    simp only [unmarshalV]
    rw [hed]
    refine (post_int hw hp (hnum rfl)).mono ?_
    intro bs v ⟨_, h1, i, hv, hr⟩
    subst hv
    refine ⟨?_, fun _ => h1⟩
    simp only [typedV, decide_eq_true_eq]
    exact hr
  | .uint w, e, fi, cur, hed, hroot, hex, ht, hp, hn, hg, hnum, hcp, hty, s, hw => by
    simp only [unmarshalV]
    rw [hed]
    refine (post_uint hw (hnum rfl)).mono ?_
    intro bs v ⟨h1, n, hv, hr, _⟩
    subst hv
    refine ⟨?_, fun _ => h1⟩
    simp only [typedV, decide_eq_true_eq]
    exact hr
  | .bool, e, fi, cur, hed, hroot, hex, ht, hp, hn, hg, hnum, hcp, hty, s, hw => by
    simp only [unmarshalV]
    rw [hed]
    refine (post_bool hw (hnum rfl)).mono ?_
    intro bs v ⟨_, h1, out, hv, _⟩
    subst hv
    exact ⟨by simp only [typedV], fun _ => h1⟩
  | .str, e, fi, cur, hed, hroot, hex, ht, hp, hn, hg, hnum, hcp, hty, s, hw => by
    simp only [unmarshalV]
    rw [hed]
    refine (post_string hw hcp).mono ?_
    intro bs v ⟨b, hv, _⟩
    subst hv
    exact ⟨by simp only [typedV], by simp [Ty.prog]⟩
theorem safe_fields {d : Bytes} (hd : d.length ≤ maxAlloc) (nh : Prop) (ok : SV → Prop) (ex : List String) :
    ∀ (fs : Fields) (e : UEnv) (c : Option Cfo) (all : Fields) (cur : SV),
      (∀ f t, (f, t) ∈ fs.toList → (f, t) ∈ all.toList) → all.names.Nodup → e.d = d → ok e.root →
      (∀ n ∈ ex, ∀ z, e.cfo.size n e.ctx e.root = some z → z ≤ 8 * maxAlloc) →
      fs.Total e.cfo ok false c → fs.plain ex c = true → fs.nodup = true → (nh → fs.greedyOk = true) →
      typedFields all cur = true →
      ∀ s, s.r.WF d → Post d nh (fun bs cur' => typedFields all cur' = true ∧ (fs.prog = true → 1 ≤ bs.length)) s
        (unmarshalFields e false c fs cur s)
  | .nil, e, c, all, cur, hsub, hnd, hed, hroot, hex, ht, hp, hn, hg, hty, s, hw => by
    simp only [unmarshalFields]
    exact Post.pure hw ⟨hty, by simp [Fields.prog]⟩
  | .cons f t fs, e, c, all, cur, hsub, hnd, hed, hroot, hex, ht, hp, hn, hg, hty, s, hw => by
    simp only [Fields.Total] at ht
    simp only [Fields.plain] at hp
    simp only [Fields.nodup] at hn
    simp only [Fields.greedyOk] at hg
    simp only [Bool.and_eq_true] at hp hn hg
    obtain ⟨⟨⟨hcp, hsz⟩, hpt⟩, hpf⟩ := hp
    have hmem : (f, t) ∈ all.toList := hsub f t (by simp [Fields.toList])
    obtain ⟨x, hget, hxt⟩ := typed_get hnd hty hmem
    have hans := ht.1 e.ctx (if c.isSome = true then cur else e.root) (fun h => by
      rcases h with h | h
      · simp at h
      · subst h; exact hroot)
    obtain ⟨fi, hres⟩ := resolve_some hans.1 hans.2
    rw [unmarshalFields_nested e c f t fs cur s hres hget]
    have htgt : f.uncond = true → isTarget (c.getD e.cfo) e.ctx e.root (if c.isSome = true then cur else e.root) fi = true :=
      fun h => uncond_target hres h
    obtain ⟨size, length, hfi, hs1, hs2, hl1, _⟩ := resolve_eta hres
    have hunl : (fi.length == lengthUnlimited) = true → (f.lenDyn || f.length == lengthUnlimited) = true := by
      intro h
      cases hld : f.lenDyn with
      | true => rfl
      | false =>
        rw [hfi] at h
        simp only [hl1 hld] at h
        simpa using h
    have hrec := fun cur' (hty' : typedFields all cur' = true) s (hw : s.r.WF d) =>
      safe_fields hd nh ok ex fs e c all cur' (fun g u h => hsub g u (by simp [Fields.toList, h])) hnd hed hroot hex
        ht.2.2 hpf hn.2 (fun h => (hg h).2) hty' s hw
    have hnum : t.numeric = true → fi.size ≤ 8 * maxAlloc := by
      intro hnum
      rw [hnum] at hsz
      simp only [Bool.not_true, Bool.false_or, Bool.or_eq_true, Bool.and_eq_true, Bool.not_eq_true',
        decide_eq_true_eq] at hsz
      rw [hfi]
      simp only
      rcases hsz with ⟨h1, h2⟩ | ⟨⟨h1, h2⟩, h3⟩
      · rw [hs1 h1]; simp only [maxAlloc]; omega
      · have hc : c = none := by simpa using h2
        subst hc
        exact hex f.name (by simpa using h3) size (hs2 h1)
    clear hs2
    generalize (if c.isSome = true then cur else e.root) = csv at hres htgt ⊢
    split
    · next hnt =>
      refine (hrec cur hty s hw).mono ?_
      intro bs cur' ⟨h1, h2⟩
      refine ⟨h1, ?_⟩
      intro hpr
      simp only [Fields.prog, Bool.or_eq_true] at hpr
      rcases hpr with hpr | hpr
      · rw [Bool.and_eq_true] at hpr
        exact absurd (htgt hpr.1) hnt
      · exact h2 hpr
    · have hcp' : fi.strCP = false := by rw [hfi]; simpa using hcp
      refine Post.bind (safe_V hd nh ok ex t e fi x hed hroot hex ht.2.1 hpt hn.1.2
        (fun h => t.greedyOk_weaken hunl (hg h).1) hnum hcp' hxt
        s hw) ?_
      intro bs v s' ⟨hv1, hv2⟩ _ hw' _
      refine (hrec (cur.set f.name v) (typed_set hnd hty hmem hv1) s' hw').mono ?_
      intro bs' cur' ⟨h1, h2⟩
      refine ⟨h1, ?_⟩
      intro hpr
      simp only [Fields.prog, Bool.or_eq_true] at hpr
      rw [List.length_append]
      rcases hpr with hpr | hpr
      · rw [Bool.and_eq_true] at hpr
        have := hv2 hpr.2
        omega
      · have := h2 hpr
        omega
end

end Mp4
