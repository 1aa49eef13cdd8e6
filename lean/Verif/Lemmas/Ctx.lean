import Verif.Lemmas.Lookup

/-! # Decoding in different contexts -/

namespace Mp4

/-- The methods answer the same in both contexts. -/
def Cfo.Agree (a b : Ctx) (c : Cfo) : Prop :=
  ∀ n sv, c.size n a sv = c.size n b sv ∧ c.length n a sv = c.length n b sv ∧ c.opt n a sv = c.opt n b sv

mutual
/-- The methods of all structs inside do. -/
def Ty.Agree (a b : Ctx) : Ty → Prop
  | .ptr t => t.Agree a b
  | .arr _ t => t.Agree a b
  | .slice t => t.Agree a b
  | .struct c fs => (match c with | some c => c.Agree a b | none => True) ∧ fs.Agree a b
  | _ => True
/-- The methods of all structs inside do. -/
def Fields.Agree (a b : Ctx) : Fields → Prop
  | .nil => True
  | .cons _ t fs => t.Agree a b ∧ fs.Agree a b
end

theorem resolve_agree {a b : Ctx} {c : Cfo} (h : c.Agree a b) (csv : SV) (f : Field) : resolve c a csv f = resolve c b csv f := by
  unfold resolve
  rw [(h f.name csv).1, (h f.name csv).2.1]

theorem isTarget_agree {a b : Ctx} {c : Cfo} (h : c.Agree a b) (root csv : SV) (f : Field) :
    isTarget c a root csv f = isTarget c b root csv f := by
  unfold isTarget
  rw [(h f.name csv).2.2]

mutual
theorem unmarshalV_agree {a b : Ctx} : ∀ (t : Ty) (e : UEnv) (fi : Field) (x : Val), t.Agree a b → e.cfo.Agree a b →
    unmarshalV { e with ctx := a } t fi x = unmarshalV { e with ctx := b } t fi x
  | .ptr t, e, fi, x, h, he => by
    rw [unmarshalV, unmarshalV, unmarshalV_agree t e fi t.zero h he]
  | .struct c fs, e, fi, x, h, he => by
    cases x with
    | struct sv =>
      rw [unmarshalV, unmarshalV]
      congr 1
      funext size8
      rw [← unmarshalFields_agree fs { e with size8 := size8 } false c sv h.2 he h.1]
    | _ => simp only [unmarshalV]
  | .arr n t, e, fi, x, h, he => by
    cases x with
    | arr l =>
      rw [unmarshalV, unmarshalV]
      simp only [fun x => unmarshalV_agree t e fi x h he]
    | _ => simp only [unmarshalV]
  | .slice t, e, fi, x, h, he => by
    rw [unmarshalV, unmarshalV, unmarshalV_agree t e fi t.zero h he]
  | .int w, e, fi, x, h, he => by rw [unmarshalV, unmarshalV]
  | .uint w, e, fi, x, h, he => by rw [unmarshalV, unmarshalV]
  | .bool, e, fi, x, h, he => by rw [unmarshalV, unmarshalV]
  | .str, e, fi, x, h, he => by rw [unmarshalV, unmarshalV]

theorem unmarshalFields_agree {a b : Ctx} : ∀ (fs : Fields) (e : UEnv) (top : Bool) (c : Option Cfo) (cur : SV),
    fs.Agree a b → e.cfo.Agree a b → (match c with | some c => c.Agree a b | none => True) →
    unmarshalFields { e with ctx := a } top c fs cur = unmarshalFields { e with ctx := b } top c fs cur
  | .nil, e, top, c, cur, h, he, hc => by rw [unmarshalFields, unmarshalFields]
  | .cons f t fs, e, top, c, cur, h, he, hc => by
    have hcf : (c.getD e.cfo).Agree a b := by
      cases c with
      | none => exact he
      | some c => exact hc
    have hv : ∀ root fi x, unmarshalV ⟨e.d, a, e.size8, root, e.cfo, e.hook, e.supported⟩ t fi x =
        unmarshalV ⟨e.d, b, e.size8, root, e.cfo, e.hook, e.supported⟩ t fi x :=
      fun root fi x => unmarshalV_agree t { e with root := root } fi x h.1 he
    rw [unmarshalFields, unmarshalFields]
    simp only [resolve_agree hcf, isTarget_agree hcf, fun cur => unmarshalFields_agree fs e top c cur h.2 he hc, hv]
end

theorem unmarshalBox_agree {bd : BoxDef} {a b : Ctx} (h1 : bd.cfo.Agree a b) (h2 : bd.fields.Agree a b) (d : Bytes) (ps : Nat)
    (sv : SV) : unmarshalBox bd d a ps sv = unmarshalBox bd d b ps sv := by
  have : ∀ sv, unmarshalBody bd d a ps sv = unmarshalBody bd d b ps sv := by
    intro sv
    unfold unmarshalBody
    funext sn
    have := unmarshalFields_agree bd.fields (bd.uenv d a ps) true (some bd.cfo) sv h2 h1 h1
    have e1 : { bd.uenv d a ps with ctx := a } = bd.uenv d a ps := rfl
    have e2 : { bd.uenv d a ps with ctx := b } = bd.uenv d b ps := rfl
    rw [e1, e2] at this
    rw [this]
  unfold unmarshalBox
  simp only [this]

/-- No box type but the audio sample entries looks at the context. -/
theorem defs_agree (a b : Ctx) : ∀ bd ∈ Cat.allDefs, bd.goName ≠ "AudioSampleEntry" → bd.cfo.Agree a b ∧ bd.fields.Agree a b := by
  unfold Cat.allDefs
  simp only [List.forall_mem_cons]
  repeat' apply And.intro
  all_goals first
    | (intro x hx; exact absurd hx (by simp))
    | (intro h; exact absurd rfl h)
    | (intro _; refine ⟨fun n sv => ⟨rfl, rfl, rfl⟩, ?_⟩; repeat' apply And.intro)
  all_goals first
    | trivial
    | (intro n sv; exact ⟨rfl, rfl, rfl⟩)

/-- The types of audio sample entries. -/
def audioTypes : List BoxType :=
  [⟨0x61, 0x63, 0x2d, 0x33⟩, ⟨0x6d, 0x70, 0x34, 0x61⟩, ⟨0x65, 0x6e, 0x63, 0x61⟩, ⟨0x69, 0x70, 0x63, 0x6d⟩, ⟨0x66, 0x70, 0x63, 0x6d⟩,
    ⟨0x4f, 0x70, 0x75, 0x73⟩]

/-- The two contexts do not differ in anything that matters for boxes of type `t`: whether the box is below `ilst`, an item, a free-form
item, or `udta`; the number of keys, if it is below `ilst`; for audio sample entries, whether the file is a QuickTime file, and
then whether the box is below `wave`. -/
structure Ctx.Alike (t : BoxType) (a b : Ctx) : Prop where
  ilst : a.underIlst = b.underIlst
  ilstMeta : a.underIlstMeta = b.underIlstMeta
  ilstFree : a.underIlstFreeMeta = b.underIlstFreeMeta
  udta : a.underUdta = b.underUdta
  keys : b.underIlst = true → a.quickTimeKeysMetaEntryCount = b.quickTimeKeysMetaEntryCount
  qt : t ∈ audioTypes → a.isQuickTimeCompatible = b.isQuickTimeCompatible
  wave : t ∈ audioTypes → b.isQuickTimeCompatible = true → a.underWave = b.underWave

theorem isFor_alike {t : BoxType} {a b : Ctx} (h : Ctx.Alike t a b) : ∀ bd ∈ Cat.allDefs, bd.isFor a = bd.isFor b := by
  obtain ⟨h1, h2, h3, h4, -⟩ := h
  unfold Cat.allDefs
  simp only [List.forall_mem_cons]
  repeat' apply And.intro
  all_goals first
    | rfl
    | exact h1
    | exact h2
    | exact h3
    | exact h4
    | (show (a.underIlst && !a.underIlstMeta) = (b.underIlst && !b.underIlstMeta); rw [h1, h2])
    | (intro x hx; exact absurd hx (by simp))

theorem defLoop_alike {a b : Ctx} {l : List BoxDef} (h : ∀ bd ∈ l, bd.isFor a = bd.isFor b) :
    ∀ n, defLoop l a n = defLoop l b n
  | 0 => rfl
  | n + 1 => by
    rw [defLoop, defLoop]
    cases hl : l[n]? with
    | none => rfl
    | some bd => simp only [h bd (List.mem_of_getElem? hl), defLoop_alike h n]

theorem getBoxDef_alike {t : BoxType} {a b : Ctx} (h : Ctx.Alike t a b) :
    BoxMap.std.getBoxDef t a = BoxMap.std.getBoxDef t b := by
  unfold BoxMap.getBoxDef
  rw [defLoop_alike (l := BoxMap.std t) fun bd hb => isFor_alike h bd (registry_mem (ofRegs_mem hb))]
  cases hb : b.underIlst with
  | false => simp only [h.ilst, hb, Bool.false_eq_true, if_false]
  | true => rw [h.ilst, hb, h.keys hb]

theorem bd_audio : ∀ bd ∈ Cat.allDefs, bd.goName = "AudioSampleEntry" → bd = Cat.bdAudioSampleEntry := by
  unfold Cat.allDefs
  simp only [List.forall_mem_cons]
  repeat' apply And.intro
  all_goals first
    | (intro _; rfl)
    | (intro _; trivial)
    | (intro h; exact absurd h (by decide))
    | (intro x hx; exact absurd hx (by simp))

theorem registry_audio : ∀ r ∈ Cat.registry, r.2.goName = "AudioSampleEntry" → r.1 ∈ audioTypes := by
  have h : Cat.registry.all (fun r => !(r.2.goName == "AudioSampleEntry") || audioTypes.contains r.1) = true := by decide +kernel
  intro r hr hn
  have := List.all_eq_true.1 h r hr
  simpa [hn] using this

theorem std_audio {t : BoxType} {ctx : Ctx} {bd : BoxDef} (h : BoxMap.std.getBoxDef t ctx = some bd)
    (hn : bd.goName = "AudioSampleEntry") : t ∈ audioTypes := by
  unfold BoxMap.getBoxDef at h
  split at h
  · next x hx =>
    cases h
    exact registry_audio _ (ofRegs_mem (defLoop_mem hx)) hn
  · split at h
    · simp only at h
      split at h
      · cases h; exact absurd hn (by decide)
      · cases h
    · cases h

theorem audio_agree {t : BoxType} {a b : Ctx} (h : Ctx.Alike t a b) (ht : t ∈ audioTypes) : cfoAudioSampleEntry.Agree a b := by
  intro n sv
  refine ⟨rfl, ?_, ?_⟩
  · simp only [cfoAudioSampleEntry, h.qt ht]
    cases hb : b.isQuickTimeCompatible with
    | false => simp
    | true => rw [h.wave ht hb]
  · simp only [cfoAudioSampleEntry, h.qt ht]
    cases hb : b.isQuickTimeCompatible with
    | false => simp
    | true => rw [h.wave ht hb]

/-- A box is decoded in the same way in contexts that do not differ in anything that matters for it. -/
theorem unmarshalAny_alike {t : BoxType} {a b : Ctx} (h : Ctx.Alike t a b) (d : Bytes) (ps : Nat) :
    BoxMap.std.unmarshalAny d t ps a = BoxMap.std.unmarshalAny d t ps b := by
  unfold BoxMap.unmarshalAny BoxMap.new
  rw [getBoxDef_alike h]
  funext pos
  cases hl : BoxMap.std.getBoxDef t b with
  | none => rfl
  | some bd =>
    have hm := std_mem hl
    have hag : bd.cfo.Agree a b ∧ bd.fields.Agree a b := by
      by_cases hn : bd.goName = "AudioSampleEntry"
      · cases bd_audio bd hm hn
        have := audio_agree h (std_audio hl hn)
        refine ⟨this, ?_⟩
        repeat' apply And.intro
        all_goals first
          | trivial
          | (intro n sv; exact ⟨rfl, rfl, rfl⟩)
      · exact defs_agree a b bd hm hn
    simp only [unmarshalBox_agree hag.1 hag.2]

end Mp4
