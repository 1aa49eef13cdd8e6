import Verif.Lemmas.Custom
import Verif.Props.Field
import Verif.Props.RoundTrip
import Verif.Model.ValEq

/-!
# C70: box types that an application defines
-/

namespace Mp4.Props

open Mp4 Mp4.Spec

/-! ## Every definition -/

/-- **C70** — `Unmarshal` into a box of any definition with `SafeDef`, from any bytes, with any announced size, whatever the box held before, returns: an error,
or the number of bytes it consumed, which is neither more than announced nor more than there are. -/
theorem custom_decodes_safely (bd : BoxDef) (hsd : SafeDef bd) (d : Bytes) (hd : d.length ≤ 2 ^ 48) (pos : Nat) (hpos : pos ≤ d.length)
    (ctx : Ctx) (ps : Nat) (dst : SV) (hty : typedFields bd.fields dst = true) :
    (∃ n sv, unmarshalBox bd d ctx ps dst pos = (.ok (n, sv), pos + n) ∧ n ≤ ps ∧ pos + n ≤ d.length ∧ typedFields bd.fields sv = true) ∨
    ∃ e p, unmarshalBox bd d ctx ps dst pos = (.err e, p) := by
  rcases custom_post hsd hd hpos ctx ps hty with ⟨n, sv, h1, h2, h3, h4, _⟩ | h
  · exact Or.inl ⟨n, sv, h1, h2, h3, h4⟩
  · exact Or.inr h

/-- **C70** — It looks only at its payload. -/
theorem custom_is_local (bd : BoxDef) (hsd : SafeDef bd) (pre payload rest rest' : Bytes) (hd : (pre ++ payload ++ rest).length ≤ 2 ^ 48)
    (hd' : (pre ++ payload ++ rest').length ≤ 2 ^ 48) (ctx : Ctx) (dst : SV) (hty : typedFields bd.fields dst = true) (r : Nat × SV) (pos' : Nat)
    (hok : unmarshalBox bd (pre ++ payload ++ rest) ctx payload.length dst pre.length = (.ok r, pos')) :
    unmarshalBox bd (pre ++ payload ++ rest') ctx payload.length dst pre.length = (.ok r, pos') := by
  have ha : Agree (pre ++ payload).length (pre ++ payload ++ rest) (pre ++ payload ++ rest') := by
    refine ⟨by rw [List.take_left, List.take_left], by simp, by simp, ?_⟩
    simp only [U64]; omega
  refine custom_sim hsd ha ctx _ dst _ hok ?_
  rcases custom_post hsd (d := pre ++ payload ++ rest) hd (pos := pre.length) (by simp) ctx payload.length hty with
    ⟨n, sv, h1, h2, h3, _⟩ | ⟨e, p, h1⟩
  · rw [h1] at hok
    cases hok
    rw [List.length_append]; omega
  · rw [h1] at hok
    cases hok

/-- **C70** — What is written is read again, if the definition is `OrderedDef`. -/
theorem custom_round_trip (bd : BoxDef) (hod : OrderedDef bd) (ctx : Ctx) (sv : SV) (hfit : fits bd ctx sv = true) (out pre rest : Bytes) :
    ∃ p : Bytes, bytesBits p = layout bd ctx sv ∧
      marshalBox bd memSink ctx sv out = (.ok p.length, out ++ p) ∧
      ((pre ++ p ++ rest).length < 2 ^ 64 →
        unmarshalBox bd (pre ++ p ++ rest) ctx p.length bd.fields.zero pre.length =
          (.ok (p.length, sv), pre.length + p.length)) := by
  have h8 : (layout bd ctx sv).length % 8 = 0 := by
    unfold fits at hfit
    simp only [Bool.and_eq_true, beq_iff_eq] at hfit
    exact hfit.1.1.1.1.2
  refine ⟨bitsBytes (layout bd ctx sv), bytesBits_bitsBytes _ h8, marshalBox_layout hfit out, ?_⟩
  intro hlen
  exact unmarshalBox_layout hod.order hod.looks.1 hod.looks.2 hfit pre rest hlen

/-- **C70** — What was read is written again, byte by byte, if the definition is `ExactDef` and the encoding has the length of what was read. -/
theorem custom_reencode (bd : BoxDef) (nul : Bool) (hsd : SafeDef bd) (hod : OrderedDef bd) (hed : ExactDef nul bd)
    (d : Bytes) (hd : d.length ≤ 2 ^ 48) (pos : Nat) (hpos : pos ≤ d.length) (ctx : Ctx) (ps : Nat) (dst : SV)
    (hty : typedFields bd.fields dst = true) (n : Nat) (sv : SV) (pos' : Nat)
    (hu : unmarshalBox bd d ctx ps dst pos = (.ok (n, sv), pos')) (hl : (layout bd ctx sv).length = 8 * n)
    (out : Bytes) : marshalBox bd memSink ctx sv out = (.ok n, out ++ (d.drop pos).take n) := by
  obtain ⟨hw, hb⟩ := custom_exact hsd hod hed hd hty hpos hu hl
  rw [marshalBox_writes hw (by omega) (by rw [hsd.noHook]; simp) out, hb, hl, Nat.mul_div_cancel_left _ (by decide)]

/-- **C70** — If there are no strings, it always has that length. -/
theorem custom_reencode_noStr (bd : BoxDef) (hsd : SafeDef bd) (hod : OrderedDef bd) (hed : ExactDef true bd) (hed' : ExactDef false bd)
    (d : Bytes) (hd : d.length ≤ 2 ^ 48) (pos : Nat) (hpos : pos ≤ d.length) (ctx : Ctx) (ps : Nat) (dst : SV)
    (hty : typedFields bd.fields dst = true) (n : Nat) (sv : SV) (pos' : Nat)
    (hu : unmarshalBox bd d ctx ps dst pos = (.ok (n, sv), pos')) (out : Bytes) :
    marshalBox bd memSink ctx sv out = (.ok n, out ++ (d.drop pos).take n) :=
  custom_reencode bd true hsd hod hed d hd pos hpos ctx ps dst hty n sv pos' hu
    (custom_length hsd hod hed hed' hd hty hpos hu) out

/-- **C70** — `Marshal` into any writer returns: an error or a number of bytes, if no pointer that is part of the encoding is nil. -/
theorem custom_encodes_safely (bd : BoxDef) (hsd : SafeDef bd) {σ : Type} (k : Sink σ) (ctx : Ctx) (sv : SV) (hty : typedFields bd.fields sv = true)
    (hn : noNilFields (env bd ctx sv) (some bd.cfo) bd.fields sv = true) (s : σ) :
    (∃ n, (marshalBox bd k ctx sv s).1 = .ok n) ∨ ∃ e, (marshalBox bd k ctx sv s).1 = .err e := by
  obtain ⟨h1, h2⟩ := custom_noPanic hsd k hty hn s
  cases h : (marshalBox bd k ctx sv s).1 with
  | ok n => exact Or.inl ⟨n, rfl⟩
  | err e => exact Or.inr ⟨e, rfl⟩
  | panic => exact absurd h h1
  | hang => exact absurd h h2

/-- **C70** — The number of bytes `Marshal` reports is the number of bytes it has written, if `bool` fields have at most 8 bits. -/
theorem custom_marshal_counts (bd : BoxDef) (hb : bd.fields.boolsOk = true) (ctx : Ctx) (sv : SV) (out out' : Bytes) (n : Nat)
    (h : marshalBox bd memSink ctx sv out = (.ok n, out')) : ∃ p : Bytes, out' = out ++ p ∧ p.length = n := marshalBox_counts hb h

/-! ## The example of the README -/

/-- The struct of the section "User-defined Boxes", README.md:128-132. -/
def declXxxx : Tag.Decl := [
  ("FullBox", "0,extend", fullBoxTy),
  ("UI32", "1,size=32", .uint 32),
  ("ByteArray", "2,size=8,len=dynamic", .slice (.uint 8))]

/-- its layout -/
def fsXxxx : Fields := .cons { name := "FullBox", extend := true } fullBoxTy (.cons { name := "UI32", size := 32 } (.uint 32)
  (.cons { name := "ByteArray", size := 8, lenDyn := true } (.slice (.uint 8)) .nil))

/-- README.md:124-136: registered with version 0; the struct has no method other than `GetType`, those of `ICustomFieldObject` are the ones of the
embedded `FullBox`, that is of `BaseCustomFieldObject` (box.go:35-51). -/
def bdXxxx : BoxDef := { goName := "Xxxx", fields := fsXxxx, versions := [0] }

/-- The same with a method `GetFieldLength` that answers with the value of `UI32`. -/
def bdXxxxLen : BoxDef := { bdXxxx with cfo := Cfo.counted "ByteArray" "UI32" }

/-- The tags of the README mean that layout. -/
theorem readme_layout : (Tag.buildFieldsStruct (fun _ t => Tag.parseFieldTag t) declXxxx).map Fields.ofList = some fsXxxx := by rfl

theorem readme_with_length_safe : SafeDef bdXxxxLen where
  noHook := rfl
  noMeta := rfl
  full := Or.inr ⟨_, _, rfl, by decide, by decide⟩
  names := by decide
  sizes := by decide
  answers := by
    simp [bdXxxxLen, bdXxxx, fsXxxx, Fields.Total, Ty.Total, fullBoxTy, Cfo.counted]
  moves := by decide

theorem readme_with_length_ordered : OrderedDef bdXxxxLen where
  looks := ⟨Cfo.counted_local _ _, by
    simp [bdXxxxLen, bdXxxx, fsXxxx, Fields.AllLocal, Ty.AllLocal, fullBoxTy_local]⟩
  order := by decide

theorem readme_with_length_exact (nul : Bool) : ExactDef nul bdXxxxLen where
  numbers := by cases nul <;> decide
  lengths := ⟨Cfo.counted_small _ _, by
    simp [bdXxxxLen, bdXxxx, fsXxxx, Fields.AllSmall, Ty.AllSmall, fullBoxTy_small]⟩
  counts := by decide

/-- a value of it -/
def exXxxx : SV :=
  [("FullBox", .struct [("Version", .uint 0), ("Flags", .arr [.uint 0, .uint 0, .uint 1])]), ("UI32", .uint 3),
    ("ByteArray", .slice [.uint 7, .uint 8, .uint 9])]

/-- With the method, all of the above holds of it. -/
example : fits bdXxxxLen {} exXxxx = true ∧ noNilFields (env bdXxxxLen {} exXxxx) (some bdXxxxLen.cfo) bdXxxxLen.fields exXxxx = true ∧
    bdXxxxLen.fields.boolsOk = true := by decide +kernel
example := custom_round_trip bdXxxxLen readme_with_length_ordered {} exXxxx (by decide +kernel)
example := custom_reencode_noStr bdXxxxLen readme_with_length_safe readme_with_length_ordered (readme_with_length_exact true) (readme_with_length_exact false)

theorem xxxx_shape {sv : SV} (hty : typedFields fsXxxx sv = true) :
    ∃ v a b c u l, sv = [("FullBox", .struct [("Version", .uint v), ("Flags", .arr [.uint a, .uint b, .uint c])]), ("UI32", .uint u), ("ByteArray", l)] := by
  unfold fsXxxx at hty
  match sv, hty with
  | [], h => simp [typedFields] at h
  | [_], h => simp [typedFields] at h
  | [_, _], h => simp [typedFields] at h
  | (n1, x1) :: (n2, x2) :: (n3, x3) :: r, h =>
    simp only [typedFields, Bool.and_eq_true, beq_iff_eq] at h
    obtain ⟨⟨rfl, h1⟩, ⟨rfl, h2⟩, ⟨rfl, h3⟩, h4⟩ := h
    obtain ⟨u, rfl, _⟩ := typedV_uint_inv h2
    obtain ⟨v, a, b, c, rfl, _⟩ := typed_fullBox_inv (by unfold fullBoxTy at h1; exact h1)
    have : r = [] := by simpa using h4
    subst this
    exact ⟨v, a, b, c, u, x3, rfl⟩

/-- **C70**, finding — As printed in the README, without a method `GetFieldLength`, `Marshal` of the box panics, whatever it holds. -/
theorem readme_marshal_panics (ctx : Ctx) (sv : SV) (hty : typedFields bdXxxx.fields sv = true) (out : Bytes) :
    (marshalBox bdXxxx memSink ctx sv out).1 = .panic := by
  obtain ⟨v, a, b, c, u, l, rfl⟩ := xxxx_shape hty
  have hm : ∃ st, marshalFields (bdXxxx.menv memSink ctx [("FullBox", .struct [("Version", .uint v), ("Flags", .arr [.uint a, .uint b, .uint c])]), ("UI32", .uint u), ("ByteArray", l)])
      true (some bdXxxx.cfo) fsXxxx [("FullBox", .struct [("Version", .uint v), ("Flags", .arr [.uint a, .uint b, .uint c])]), ("UI32", .uint u), ("ByteArray", l)]
      ⟨WSt.fresh out, 0⟩ = (.panic, st) := by
    generalize hE : (env bdXxxx ctx [("FullBox", .struct [("Version", .uint v), ("Flags", .arr [.uint a, .uint b, .uint c])]), ("UI32", .uint u), ("ByteArray", l)]) = E
    have hM : (bdXxxx.menv memSink ctx [("FullBox", .struct [("Version", .uint v), ("Flags", .arr [.uint a, .uint b, .uint c])]), ("UI32", .uint u), ("ByteArray", l)]) = menvOf E := by
      subst hE; rfl
    have hk : E.hook = .none := by subst hE; rfl
    rw [hM]
    obtain ⟨s1, e1, _, _, i1⟩ := writes_V E fullBoxTy { name := "FullBox", extend := true } (.struct [("Version", .uint v), ("Flags", .arr [.uint a, .uint b, .uint c])])
      (by simp [fullBoxTy, writableV, writableFields, SV.get, silent, instField]) ⟨WSt.fresh out, 0⟩ ⟨WSt.fresh_wf out, rfl⟩
    obtain ⟨s2, e2, _, _, i2⟩ := writes_V E (.uint 32) { name := "UI32", size := 32 } (.uint u) (by simp [writableV]) s1 i1
    refine ⟨s2, ?_⟩
    have h3 : ∀ cur, marshalFields (menvOf E) true (some bdXxxx.cfo) (.cons { name := "ByteArray", size := 8, lenDyn := true } (.slice (.uint 8)) .nil) cur s2 = (.panic, s2) := by
      intro cur
      simp [marshalFields, resolve, bdXxxx, Cfo.base]
    have step : ∀ (f : Field) (t : Ty) (fs : Fields) (x : Val) (sv : SV) (s s' : MSt Bytes), f.sizeDyn = false → f.lenDyn = false → f.version = anyVersion →
        f.nVersion = anyVersion → f.optFlag = 0 → f.nOptFlag = 0 → f.optDyn = false → sv.get f.name = some x →
        marshalV (menvOf E) t f x s = (.ok (), s') →
        marshalFields (menvOf E) true (some bdXxxx.cfo) (.cons f t fs) sv s = marshalFields (menvOf E) true (some bdXxxx.cfo) fs sv s' := by
      intro f t fs x sv s s' h1 h2 h4 h5 h6 h7 h8 hg hv
      have hr : resolve bdXxxx.cfo (menvOf E).ctx sv f = some f := by
        cases f; simp_all [resolve]
      have ht : isTarget bdXxxx.cfo (menvOf E).ctx (menvOf E).root sv f = true := by simp [isTarget, h4, h5, h6, h7, h8]
      simp only [marshalFields, Option.getD_some, Option.isSome_some, if_true, hr, ht, not_true_eq_false, if_false]
      have how : (liftW (onWrite (menvOf E).hook (menvOf E).sink f.name sv) : MM Bytes (Nat × Bool)) s = (.ok (0, false), s) := by
        show (liftW (onWrite E.hook memSink f.name sv) : MM Bytes (Nat × Bool)) s = _
        rw [hk]
        simp [liftW, onWrite]
      rw [M.bind_ok how, M.bind_ok (s' := s) (a := ()) (by simp [addW])]
      simp only [Bool.false_eq_true, if_false, hg]
      rw [M.bind_ok hv]
    unfold fsXxxx
    rw [step _ _ _ _ _ _ s1 rfl rfl rfl rfl rfl rfl rfl rfl e1, step _ _ _ _ _ _ s2 rfl rfl rfl rfl rfl rfl rfl rfl e2, h3]
  obtain ⟨st, hm⟩ := hm
  unfold marshalBox
  rw [show bdXxxx.fields = fsXxxx from rfl, hm]

/-- **C70**, finding — `Unmarshal` panics on every payload with version 0 and at least 8 bytes. -/
theorem readme_unmarshal_panics (ctx : Ctx) (dst : SV) (hty : typedFields bdXxxx.fields dst = true) (pre rest : Bytes) (ps : Nat)
    (b1 b2 b3 c0 c1 c2 c3 : Byte) :
    (unmarshalBox bdXxxx (pre ++ ([0#8, b1, b2, b3, c0, c1, c2, c3] ++ rest)) ctx ps dst pre.length).1 = .panic := by
  rw [custom_box rfl]
  generalize hd : pre ++ ([0#8, b1, b2, b3, c0, c1, c2, c3] ++ rest) = d
  have hty1 : typedFields bdXxxx.fields (dst.setVersion anyVersion) = true := by
    obtain ⟨v, a, b, c, u, l, rfl⟩ := xxxx_shape hty
    simp [bdXxxx, fsXxxx, typedFields, typedV, fullBoxTy, SV.setVersion, SV.full, SV.get, SV.set, anyVersion] at hty ⊢
    exact ⟨hty.1.2, hty.2⟩
  revert hty1
  generalize dst.setVersion anyVersion = sv
  intro hty1
  have hpos : pre.length ≤ d.length := by rw [← hd, List.length_append]; omega
  have hdrop : d.drop pre.length = [0#8, b1, b2, b3, c0, c1, c2, c3] ++ rest := by rw [← hd, List.drop_left]
  have hw : RSt.WF d (RSt.fresh pre.length) := ⟨by simp [RSt.fresh], hpos⟩
  have hrem : (RSt.fresh pre.length).rem d = bytesBits [0#8, b1, b2, b3] ++ (bytesBits [c0, c1, c2, c3] ++ bytesBits rest) := by
    rw [rem_fresh, hdrop, ← bytesBits_append, ← bytesBits_append]; rfl
  obtain ⟨x, hget, hx⟩ := full_of_typed (fs := .cons { name := "UI32", size := 32 } (.uint 32)
    (.cons { name := "ByteArray", size := 8, lenDyn := true } (.slice (.uint 8)) .nil)) (bd := bdXxxx) rfl rfl (by decide) hty1
  obtain ⟨s1, r1, w1, k1, e1⟩ := fullBox_step (e := bdXxxx.uenv d ctx ps) (fs := .cons { name := "UI32", size := 32 } (.uint 32)
    (.cons { name := "ByteArray", size := 8, lenDyn := true } (.slice (.uint 8)) .nil)) (s := ⟨RSt.fresh pre.length, 0⟩) (t := fullBoxTy) (by decide) hget hx
    hw hrem
  obtain ⟨v, a, b, c, u, l, rfl⟩ := xxxx_shape hty1
  have hp : ∃ s, unmarshalFields (bdXxxx.uenv d ctx ps) true (some bdXxxx.cfo) bdXxxx.fields
      [("FullBox", .struct [("Version", .uint v), ("Flags", .arr [.uint a, .uint b, .uint c])]), ("UI32", .uint u), ("ByteArray", l)] ⟨RSt.fresh pre.length, 0⟩ = (.panic, s) := by
    change ∃ s, unmarshalFields (bdXxxx.uenv d ctx ps) true (some (bdXxxx.uenv d ctx ps).cfo) fsXxxx _ _ = _
    unfold fsXxxx
    rw [e1, if_neg (by change ¬ ¬ bdXxxx.supports (0#8).toNat = true; decide)]
    have r1' : s1.r.rem d = natBits 32 (bitsNat (bytesBits [c0, c1, c2, c3])) ++ bytesBits rest := by
      have := natBits_bitsNat (bytesBits [c0, c1, c2, c3])
      rw [show (bytesBits [c0, c1, c2, c3]).length = 32 by rw [bytesBits_length]; rfl] at this
      rw [this]; exact r1
    have hlt : bitsNat (bytesBits [c0, c1, c2, c3]) < 2 ^ 32 := by
      have := bitsNat_lt (bytesBits [c0, c1, c2, c3])
      rwa [bytesBits_length] at this
    have hwid : s1.r.width = 32 % 8 := by
      have h2 := w1.pos_eq.2
      have h3 := w1.width
      have : (s1.r.rem d).length = (bytesBits [c0, c1, c2, c3] ++ bytesBits rest).length := congrArg List.length r1
      rw [← bytesBits_append, bytesBits_length] at this
      have hd' : (bdXxxx.uenv d ctx ps).d = d := rfl
      rw [hd'] at h2
      omega
    obtain ⟨s2, e2, _⟩ := decodes_uint (d := d) (size8 := 64) (left := 32) (w := 32) (fi := { name := "UI32", size := 32 }) (by decide) rfl (by decide)
      hlt hlt (by decide) s1 (bytesBits rest) w1 (by rw [k1]) hwid r1' (by simp)
    refine ⟨s2, ?_⟩
    rw [unmarshalFields_top _ _ _ _ _ _ _ (fi := { name := "UI32", size := 32 }) rfl, if_neg (by simp [isTarget])]
    unfold runHook
    rw [M.bind_ok (m := M.get) (s' := s1) (a := s1) rfl]
    rw [M.bind_ok (s' := s1) (a := (0, false, _)) (by simp only [liftR]; rfl)]
    rw [M.bind_ok (s' := s1) (a := ()) (by simp [addR])]
    unfold afterHook
    simp only [Bool.false_eq_true, if_false]
    simp only [SV.set, SV.get, String.reduceEq, if_false, if_true]
    simp only [unmarshalV]
    change (unmarshalUint d 32 { name := "UI32", size := 32 } >>= _) s1 = _
    rw [M.bind_ok e2, if_neg (by simp)]
    simp [unmarshalFields, resolve, bdXxxx, Cfo.base, BoxDef.uenv]
  obtain ⟨s, hp⟩ := hp
  unfold unmarshalBody
  rw [hp]

/-! ## The conditions are needed -/

/-- a list, of any length, of structs without fields -/
def bdEmptyElems : BoxDef := { goName := "E", fields := .cons { name := "Items", length := lengthUnlimited } (.slice (.struct none .nil)) .nil }

/-- a list whose number of elements is in a field behind it -/
def bdLateCount : BoxDef :=
  { goName := "L", cfo := Cfo.counted "Items" "Count",
    fields := .cons { name := "Items", size := 8, lenDyn := true } (.slice (.uint 8)) (.cons { name := "Count", size := 8 } (.uint 8) .nil) }

/-- a flag in 16 bits -/
def bdWideBool : BoxDef := { goName := "W", fields := .cons { name := "Flag", size := 16 } .bool .nil }

/-- Without `moves`, decoding may not return. -/
theorem empty_elements_hang : (unmarshalBox bdEmptyElems [0#8] {} 1 bdEmptyElems.fields.zero 0).1 = .hang := by decide +kernel

/-- Without `order`, what was written is not what is read. -/
theorem late_count_lost :
    marshalBox bdLateCount memSink {} [("Items", .slice [.uint 5]), ("Count", .uint 1)] [] = (.ok 2, [5#8, 1#8]) ∧
    (unmarshalBox bdLateCount [5#8, 1#8] {} 2 bdLateCount.fields.zero 0) = (.ok (1, [("Items", .slice []), ("Count", .uint 5)]), 1) := by
  decide +kernel

/-- **C70**, finding — A `bool` field of more than 8 bits: `Marshal` reports success and two bytes, and has written none. -/
theorem wide_bool_not_written (b : Bool) (out : Bytes) : marshalBox bdWideBool memSink {} [("Flag", .bool b)] out = (.ok 2, out) := by
  simp [marshalBox, bdWideBool, marshalFields, marshalV, resolve, isTarget, BoxDef.menv, SV.get, onWrite, addW, writeBits, WSt.fresh]
  rw [M.bind_ok (s' := ⟨⟨out, 0#8, 0⟩, 0⟩) (a := (0, false)) (by simp [liftW])]
  rw [M.bind_ok (s' := ⟨⟨out, 0#8, 0⟩, 0⟩) (a := ()) (by simp)]
  simp only [Bool.false_eq_true, if_false]
  rw [M.bind_ok (s' := ⟨⟨out, 0#8, 0⟩, 16⟩) (a := ()) (by rw [M.bind_ok (s' := ⟨⟨out, 0#8, 0⟩, 0⟩) (a := ()) (by simp [liftW])]; simp)]
  simp

end Mp4.Props
