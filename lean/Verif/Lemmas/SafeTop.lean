import Verif.Lemmas.SafeBox

/-!
# Whole boxes: what every run of `Unmarshal` does
-/

namespace Mp4

open Spec

/-- the fields set by a hook -/
def hookNames : Hook → List String
  | .none => []
  | .emsg => ["SchemeIdUri", "Value"]
  | .hdlr => ["Name"]
  | .avcc => ["HighProfileFieldsEnabled"]

/-- the type of the fields set by a hook -/
def hookTy : Hook → Ty
  | .avcc => .bool
  | _ => .str

/-- Is it this base type? -/
def Ty.sameBase : Ty → Ty → Bool
  | .bool, .bool => true
  | .str, .str => true
  | _, _ => false

/-- The fields set by the hook exist and have the type of the values stored in them. -/
def hookTyped (h : Hook) (all : Fields) : Bool :=
  (hookNames h).all (fun n => all.toList.any (fun p => p.1.name == n && p.2.sameBase (hookTy h)))

theorem hookTyped_mem {h : Hook} {all : Fields} (hh : hookTyped h all = true) {n : String} (hn : n ∈ hookNames h) :
    ∃ f, f.name = n ∧ (f, hookTy h) ∈ all.toList := by
  have := List.all_eq_true.mp hh n hn
  rw [List.any_eq_true] at this
  obtain ⟨⟨f, t⟩, hm, hp⟩ := this
  simp only [Bool.and_eq_true, beq_iff_eq] at hp
  refine ⟨f, hp.1, ?_⟩
  have ht : t = hookTy h := by
    have := hp.2
    unfold Ty.sameBase at this
    split at this
    · next h2 => rw [h2]
    · next h2 => rw [h2]
    · simp at this
  rw [← ht]; exact hm

/-- What a hook does keeps the types, and touches only its own fields. -/
theorem HookRes.keeps {h : Hook} {name : String} {lft : Nat} {cur cur' : SV} {bs : List Bool} {ov : Bool} {all : Fields}
    (hr : HookRes h name lft cur bs ov cur') (hh : hookTyped h all = true) (hnd : all.names.Nodup)
    (hty : typedFields all cur = true) :
    typedFields all cur' = true ∧ ∀ n, n ∉ hookNames h → cur'.get n = cur.get n := by
  cases hr with
  | same => exact ⟨hty, fun _ _ => rfl⟩
  | emsgSkip => exact ⟨hty, fun _ _ => rfl⟩
  | emsgText he hv hn a b ha hb =>
    subst he
    obtain ⟨f1, h1, m1⟩ := hookTyped_mem hh (n := "SchemeIdUri") (by simp [hookNames])
    obtain ⟨f2, h2, m2⟩ := hookTyped_mem hh (n := "Value") (by simp [hookNames])
    constructor
    · have t1 := typed_set (x := .str a) hnd hty m1 (by simp [hookTy, typedV])
      have t2 := typed_set (x := .str b) hnd t1 m2 (by simp [hookTy, typedV])
      rw [h1, h2] at t2
      exact t2
    · intro n hn
      simp only [hookNames, List.mem_cons, List.not_mem_nil, or_false, not_or] at hn
      rw [SV.get_set_ne hn.2, SV.get_set_ne hn.1]
  | hdlrEmpty he hn hl =>
    subst he
    obtain ⟨f1, h1, m1⟩ := hookTyped_mem hh (n := "Name") (by simp [hookNames])
    constructor
    · have t1 := typed_set (x := .str []) hnd hty m1 (by simp [hookTy, typedV])
      rw [h1] at t1
      exact t1
    · intro n hn
      simp only [hookNames, List.mem_cons, List.not_mem_nil, or_false] at hn
      rw [SV.get_set_ne hn]
  | hdlrName he hn buf hl hb =>
    subst he
    obtain ⟨f1, h1, m1⟩ := hookTyped_mem hh (n := "Name") (by simp [hookNames])
    constructor
    · have t1 := typed_set (x := .str (if cur.uint "PreDefined" ≠ 0 ∧ 2 ≤ buf.length ∧
          buf.length = ((buf.headD 0#8).toNat + 1) % 256 then
          (buf.drop 1).take (buf.headD 0#8).toNat else buf.takeWhile (fun c => c != 0#8))) hnd hty m1
          (by simp [hookTy, typedV])
      rw [h1] at t1
      exact t1
    · intro n hn
      simp only [hookNames, List.mem_cons, List.not_mem_nil, or_false] at hn
      rw [SV.get_set_ne hn]
  | avcc he hn =>
    subst he
    obtain ⟨f1, h1, m1⟩ := hookTyped_mem hh (n := "HighProfileFieldsEnabled") (by simp [hookNames])
    constructor
    · have t1 := typed_set (x := .bool (decide (32 ≤ lft) && avccHigh (cur.uint "Profile"))) hnd hty m1
          (by simp [hookTy, typedV])
      rw [h1] at t1
      exact t1
    · intro n hn
      simp only [hookNames, List.mem_cons, List.not_mem_nil, or_false] at hn
      rw [SV.get_set_ne hn]

/-- The fields of the box after `FullBox`: the run does not panic; the result is typed, and only these fields (and
those set by the hook) have changed. -/
theorem safe_top {d : Bytes} (hd : d.length ≤ maxAlloc) (nh : Prop) (ok : SV → Prop) (ex : List String) (e : UEnv)
    (all : Fields) (hed : e.d = d) (h8 : e.size8 % 8 = 0) (hnd : all.names.Nodup) (hht : hookTyped e.hook all = true)
    (hhf : "FullBox" ∉ hookNames e.hook) (hok : ∀ a b : SV, a.version = b.version → ok a → ok b)
    (hex : ∀ n ∈ ex, ∀ sv, typedFields all sv = true → ∀ z, e.cfo.size n e.ctx sv = some z → z ≤ 8 * maxAlloc) :
    ∀ (fs : Fields) (cur : SV), (∀ f t, (f, t) ∈ fs.toList → (f, t) ∈ all.toList) → "FullBox" ∉ fs.names →
      fs.Total e.cfo ok true (some e.cfo) → fs.plain ex none = true → fs.nodup = true →
      (nh → ∀ f t, (f, t) ∈ fs.toList → ∀ cur' fi, (∀ n, n ∉ fs.names → n ∉ hookNames e.hook →
        cur'.get n = cur.get n) → resolve e.cfo e.ctx cur' f = some fi →
        t.greedyOk (fi.length == lengthUnlimited) = true) →
      typedFields all cur = true → ok cur →
      ∀ s, s.r.WF d → (s.rbits + (s.r.rem d).length) % 8 = 0 →
      Post d nh (fun _ cur' => typedFields all cur' = true ∧ ∀ n, n ∉ fs.names → n ∉ hookNames e.hook →
        cur'.get n = cur.get n) s (unmarshalFields e true (some e.cfo) fs cur s)
  | .nil, cur, hsub, hfb, ht, hp, hn, hg, hty, hokc, s, hw, hal => by
    simp only [unmarshalFields]
    exact Post.pure hw ⟨hty, fun _ _ _ => rfl⟩
  | .cons f t fs, cur, hsub, hfb, ht, hp, hn, hg, hty, hokc, s, hw, hal => by
    simp only [Fields.Total] at ht
    simp only [Fields.plain] at hp
    simp only [Fields.nodup] at hn
    simp only [Bool.and_eq_true] at hp hn
    obtain ⟨⟨⟨hcp, hsz⟩, hpt⟩, hpf⟩ := hp
    simp only [Fields.names, List.mem_cons, not_or] at hfb
    have hmem : (f, t) ∈ all.toList := hsub f t (by simp [Fields.toList])
    have hans := ht.1 e.ctx cur (fun _ => hokc)
    obtain ⟨fi, hres⟩ := resolve_some (c := e.cfo) hans.1 hans.2
    rw [unmarshalFields_top e (some e.cfo) f t fs cur s hres]
    obtain ⟨size, length, hfi, hs1, hs2, hl1, _⟩ := resolve_eta hres
    have hnum : t.numeric = true → fi.size ≤ 8 * maxAlloc := by
      intro hnum
      rw [hnum] at hsz
      simp only [Bool.not_true, Bool.false_or, Bool.or_eq_true, Bool.and_eq_true, Bool.not_eq_true',
        decide_eq_true_eq] at hsz
      rw [hfi]
      simp only
      rcases hsz with ⟨h1, h2⟩ | ⟨⟨h1, h2⟩, h3⟩
      · rw [hs1 h1]; simp only [maxAlloc]; omega
      · exact hex f.name (by simpa using h3) cur hty size (hs2 h1)
    have hcp' : fi.strCP = false := by rw [hfi]; simpa using hcp
    have hrec : ∀ cur1 : SV, typedFields all cur1 = true → (∀ n, n ≠ f.name → n ∉ hookNames e.hook →
        cur1.get n = cur.get n) → ∀ s : USt, s.r.WF d → (s.rbits + (s.r.rem d).length) % 8 = 0 →
        Post d nh (fun _ cur' => typedFields all cur' = true ∧ ∀ n, n ∉ fs.names → n ∉ hookNames e.hook →
          cur'.get n = cur1.get n) s (unmarshalFields e true (some e.cfo) fs cur1 s) := by
      intro cur1 hty1 hk1 s hw hal
      have hv1 : cur1.version = cur.version := SV.version_congr (hk1 _ hfb.1 hhf)
      exact safe_top hd nh ok ex e all hed h8 hnd hht hhf hok hex fs cur1
        (fun g u h => hsub g u (by simp [Fields.toList, h])) hfb.2
        ht.2.2 hpf hn.2 (fun hh g u hm cur' fi' hc hr => hg hh g u (by simp [Fields.toList, hm]) cur' fi' (by
          intro n h1 h2
          simp only [Fields.names, List.mem_cons, not_or] at h1
          rw [hc n h1.2 h2, hk1 n h1.1 h2]) hr) hty1 (hok _ _ hv1.symm hokc) s hw hal
    have hfin : ∀ cur1 : SV, (∀ n, n ≠ f.name → n ∉ hookNames e.hook → cur1.get n = cur.get n) →
        ∀ cur' : SV, (∀ n, n ∉ fs.names → n ∉ hookNames e.hook → cur'.get n = cur1.get n) →
        ∀ n, n ∉ (Fields.cons f t fs).names → n ∉ hookNames e.hook → cur'.get n = cur.get n := by
      intro cur1 h1 cur' h2 n h3 h4
      simp only [Fields.names, List.mem_cons, not_or] at h3
      rw [h2 n h3.2 h4, h1 n h3.1 h4]
    split
    · refine (hrec cur hty (fun _ _ _ => rfl) s hw hal).mono ?_
      intro bs cur' ⟨h1, h2⟩
      exact ⟨h1, hfin cur (fun _ _ _ => rfl) cur' h2⟩
    · rw [hed]
      refine post_runHook hw hd hal h8 ?_
      intro bs ov cur1 s1 hres1 hrem1 hw1 hb1
      obtain ⟨hty1, hk1⟩ := hres1.keeps hht hnd hty
      have hal1 : (s1.rbits + (s1.r.rem d).length) % 8 = 0 := by
        rw [hrem1, List.length_append] at hal
        rw [hb1]
        omega
      have hv1 : cur1.version = cur.version := SV.version_congr (hk1 _ hhf)
      unfold afterHook
      cases ov with
      | true =>
        simp only [if_true]
        refine (hrec cur1 hty1 (fun n _ h => hk1 n h) s1 hw1 hal1).mono ?_
        intro bs' cur' ⟨h1, h2⟩
        exact ⟨h1, hfin cur1 (fun n _ h => hk1 n h) cur' h2⟩
      | false =>
        obtain ⟨x, hget, hxt⟩ := typed_get hnd hty1 hmem
        simp only [Bool.false_eq_true, if_false, hget]
        refine Post.bind (safe_V hd nh ok ex t { e with root := cur1 } fi x hed (hok _ _ hv1.symm hokc)
          (fun n hn z hz => hex n hn cur1 hty1 z hz) ht.2.1 hpt hn.1.2
          (fun hh => hg hh f t (by simp [Fields.toList]) cur fi (fun _ _ _ => rfl) hres)
          hnum hcp' hxt s1 hw1) ?_
        intro bs2 v s2 ⟨hv, _⟩ hrem2 hw2 hb2
        rw [if_neg (by
          intro h
          exact hfb.1 h.1.symm)]
        have hk2 : ∀ n, n ≠ f.name → n ∉ hookNames e.hook → (cur1.set f.name v).get n = cur.get n := by
          intro n h1 h2
          rw [SV.get_set_ne h1, hk1 n h2]
        refine (hrec (cur1.set f.name v) (typed_set hnd hty1 hmem hv) hk2 s2 hw2 (by
          rw [hrem2, List.length_append] at hal1
          rw [hb2]
          omega)).mono ?_
        intro bs' cur' ⟨h1, h2⟩
        exact ⟨h1, hfin _ hk2 cur' h2⟩

/-! ## `FullBox` -/

/-- a `FullBox` with this version and these flags -/
def fullBoxVal (b0 b1 b2 b3 : Byte) : Val :=
  .struct [("Version", .uint b0.toNat), ("Flags", .arr [.uint b1.toNat, .uint b2.toNat, .uint b3.toNat])]

theorem readByte_run {d : Bytes} {s : USt} {b : Byte} {tl : List Bool} (hw : s.r.WF d)
    (hr : s.r.rem d = byteBits b ++ tl) {fi : Field} (hfi : fi.size = 8) (hv : fi.varint = false) :
    ∃ s', unmarshalUint d 8 fi s = (.ok (.uint b.toNat), s') ∧ s'.r.rem d = tl ∧ s'.r.WF d ∧
      s'.rbits = s.rbits + 8 := by
  obtain ⟨out, r', h1, h2, h3, h4⟩ := readBits_ok (size := 8) (bs := byteBits b) (t := tl) hw hr (by simp)
  have hout : out = [b] := by
    apply bytesBits_inj
    rw [h4]
    simp [bytesBits]
  refine ⟨⟨r', s.rbits + 8⟩, ?_, h2, h3, rfl⟩
  unfold unmarshalUint
  rw [hv, hfi]
  simp only [Bool.false_eq_true, if_false]
  rw [if_neg (by decide), readBitsA_eq (by simp only [maxAlloc]; omega)]
  rw [M.bind_ok (s' := { s with r := r' }) (a := out) (by simp [liftR, h1])]
  rw [M.bind_ok (s' := ⟨r', s.rbits + 8⟩) (a := ()) (by simp [addR]), hout]
  have hb : (accBytes 0 [b] % 2 ^ 8) = b.toNat := by
    have := b.isLt
    simp [accBytes]
    omega
  rw [hb]
  rfl

theorem typedV_uint_inv {w : Nat} {v : Val} (h : typedV (.uint w) v = true) : ∃ n, v = .uint n ∧ n < 2 ^ w := by
  cases v <;> simp [typedV] at h
  exact ⟨_, rfl, h⟩

theorem typed_fullBox_inv {c : Option Cfo} {f1 f2 : Field} {cur : Val}
    (h : typedV (.struct c (.cons f1 (.uint 8) (.cons f2 (.arr 3 (.uint 8)) .nil))) cur = true) :
    ∃ v a1 a2 a3, cur = .struct [(f1.name, .uint v), (f2.name, .arr [.uint a1, .uint a2, .uint a3])] ∧
      v < 256 ∧ a1 < 256 ∧ a2 < 256 ∧ a3 < 256 := by
  cases cur <;> simp only [typedV] at h <;> try contradiction
  next sv =>
    match sv, h with
    | (n1, v1) :: (n2, v2) :: [], h =>
      simp only [typedFields, Bool.and_eq_true, beq_iff_eq] at h
      obtain ⟨⟨rfl, h1⟩, ⟨rfl, h2⟩, _⟩ := h
      obtain ⟨v, rfl, hv⟩ := typedV_uint_inv h1
      cases v2 <;> simp only [typedV] at h2 <;> try contradiction
      next l =>
        rw [Bool.and_eq_true, beq_iff_eq] at h2
        match l, h2 with
        | [x1, x2, x3], ⟨_, h2⟩ =>
          simp only [List.all_cons, Bool.and_eq_true, List.all_nil, and_true] at h2
          obtain ⟨a1, rfl, h1⟩ := typedV_uint_inv h2.1
          obtain ⟨a2, rfl, h2'⟩ := typedV_uint_inv h2.2.1
          obtain ⟨a3, rfl, h3⟩ := typedV_uint_inv h2.2.2
          exact ⟨v, a1, a2, a3, rfl, hv, h1, h2', h3⟩
    | [], h => simp [typedFields] at h
    | [_], h => simp [typedFields] at h
    | _ :: _ :: _ :: _, h => simp [typedFields] at h

theorem fullBox_run {e : UEnv} {t : Ty} {fi : Field} {cur : Val} {s : USt} {b0 b1 b2 b3 : Byte} {tl : List Bool}
    (ht : t.isFullBox = true) (hfi : fi.size = 0) (hty : typedV t cur = true) (hw : s.r.WF e.d)
    (hr : s.r.rem e.d = bytesBits [b0, b1, b2, b3] ++ tl) :
    ∃ s', unmarshalV e t fi cur s = (.ok (fullBoxVal b0 b1 b2 b3), s') ∧ s'.r.rem e.d = tl ∧ s'.r.WF e.d ∧
      s'.rbits = s.rbits + 32 := by
  unfold Ty.isFullBox at ht
  split at ht
  · next c f1 f2 =>
    simp only [Bool.and_eq_true, beq_iff_eq] at ht
    obtain ⟨rfl, rfl⟩ := ht
    obtain ⟨v, a1, a2, a3, rfl, _, _, _, _⟩ := typed_fullBox_inv hty
    · clear hty
      have htar : ∀ cf root csv (n : String) (f : Field), f = { name := n, size := 8 } →
          isTarget cf e.ctx root csv f = true := by
        intro cf root csv n f hf
        subst hf
        simp [isTarget]
      have hres : ∀ cf csv (n : String) (f : Field), f = { name := n, size := 8 } →
          resolve cf e.ctx csv f = some f := by
        intro cf csv n f hf
        subst hf
        rfl
      simp only [bytesBits_cons, bytesBits_nil, List.append_nil, List.append_assoc] at hr
      obtain ⟨s1, e1, r1, w1, c1⟩ := readByte_run (fi := { name := "Version", size := 8 }) hw hr rfl rfl
      obtain ⟨s2, e2, r2, w2, c2⟩ := readByte_run (fi := { name := "Flags", size := 8 }) w1 r1 rfl rfl
      obtain ⟨s3, e3, r3, w3, c3⟩ := readByte_run (fi := { name := "Flags", size := 8 }) w2 r2 rfl rfl
      obtain ⟨s4, e4, r4, w4, c4⟩ := readByte_run (fi := { name := "Flags", size := 8 }) w3 r3 rfl rfl
      refine ⟨s4, ?_, r4, w4, by omega⟩
      simp only [unmarshalV, structInternal, hfi]
      rw [if_neg (by decide)]
      rw [M.bind_ok (s' := s4)
        (a := [("Version", .uint b0.toNat), ("Flags", .arr [.uint b1.toNat, .uint b2.toNat, .uint b3.toNat])])]
      · rfl
      rw [unmarshalFields_nested _ c _ _ _ _ s (hres _ _ _ _ rfl) rfl, if_neg (by rw [htar _ _ _ _ _ rfl]; decide)]
      simp only [unmarshalV]
      rw [M.bind_ok e1]
      rw [unmarshalFields_nested _ c _ _ _ _ s1 (hres _ _ _ _ rfl) rfl, if_neg (by rw [htar _ _ _ _ _ rfl]; decide)]
      simp only [unmarshalV]
      rw [M.bind_ok (s' := s4) (a := .arr [.uint b1.toNat, .uint b2.toNat, .uint b3.toNat])]
      · rfl
      rw [M.bind_ok (s' := s4) (a := [.uint b1.toNat, .uint b2.toNat, .uint b3.toNat])]
      · rfl
      unfold arrLoop
      rw [M.bind_ok e2]
      unfold arrLoop
      rw [M.bind_ok (s' := s4) (a := [.uint b2.toNat, .uint b3.toNat])]
      · rfl
      rw [M.bind_ok e3]
      unfold arrLoop
      rw [M.bind_ok (s' := s4) (a := [.uint b3.toNat])]
      · rfl
      rw [M.bind_ok e4]
      rfl
  · simp at ht

end Mp4
