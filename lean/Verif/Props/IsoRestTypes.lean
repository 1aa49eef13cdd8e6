import Verif.Props.IsoTypes
import Verif.Props.IsoRest

/-!
# C81: the four-character codes of the remaining boxes
-/

namespace Mp4.Props

open Mp4 Mp4.Spec

/-- the box type with this name of four ASCII characters -/
def fourCC (s : String) : BoxType :=
  match s.toList with
  | [a, b, c, d] => code a b c d
  | _ => ⟨0, 0, 0, 0⟩

/-- the codes of the standards and the Go types -/
def restTypes : List (BoxType × BoxDef) :=
  [(fourCC "dinf", Cat.bdDinf), (fourCC "edts", Cat.bdEdts), (fourCC "mdia", Cat.bdMdia), (fourCC "mfra", Cat.bdMfra),
   (fourCC "minf", Cat.bdMinf), (fourCC "moof", Cat.bdMoof), (fourCC "moov", Cat.bdMoov), (fourCC "mvex", Cat.bdMvex),
   (fourCC "schi", Cat.bdSchi), (fourCC "sinf", Cat.bdSinf), (fourCC "stbl", Cat.bdStbl), (fourCC "traf", Cat.bdTraf),
   (fourCC "trak", Cat.bdTrak), (fourCC "udta", Cat.bdUdta), (fourCC "wave", Cat.bdWave), (fourCC "ilst", Cat.bdIlst),
   (fourCC "vttc", Cat.bdVTTCueBox), (fourCC "vtte", Cat.bdVTTEmptyCueBox), (fourCC "free", Cat.bdFree), (fourCC "skip", Cat.bdSkip),
   (fourCC "styp", Cat.bdStyp), (fourCC "stpp", Cat.bdXMLSubtitleSampleEntry), (fourCC "sbtt", Cat.bdTextSubtitleSampleEntry),
   (fourCC "wvtt", Cat.bdWVTTSampleEntry), (fourCC "vttC", Cat.bdWebVTTConfigurationBox), (fourCC "vlab", Cat.bdWebVTTSourceLabelBox),
   (fourCC "ctim", Cat.bdCueTimeBox), (fourCC "iden", Cat.bdCueIDBox), (fourCC "sttg", Cat.bdCueSettingsBox),
   (fourCC "payl", Cat.bdCuePayloadBox), (fourCC "vtta", Cat.bdVTTAdditionalTextBox), (fourCC "vsid", Cat.bdCueSourceIDBox),
   (fourCC "meta", Cat.bdMeta), (fourCC "keys", Cat.bdKeys), (fourCC "sgpd", Cat.bdSgpd),
   (fourCC "hdlr", Cat.bdHdlr), (fourCC "cslg", Cat.bdCslg), (fourCC "dref", Cat.bdDref), (fourCC "stsd", Cat.bdStsd),
   (fourCC "url ", Cat.bdUrl), (fourCC "urn ", Cat.bdUrn), (fourCC "frma", Cat.bdFrma), (fourCC "schm", Cat.bdSchm),
   (fourCC "saio", Cat.bdSaio), (fourCC "saiz", Cat.bdSaiz), (fourCC "sbgp", Cat.bdSbgp), (fourCC "sdtp", Cat.bdSdtp),
   (fourCC "mdat", Cat.bdMdat), (fourCC "pssh", Cat.bdPssh), (fourCC "tenc", Cat.bdTenc), (fourCC "tfra", Cat.bdTfra),
   (fourCC "trep", Cat.bdTrep), (fourCC "colr", Cat.bdColr), (fourCC "fiel", Cat.bdFiel), (fourCC "pcmC", Cat.bdPcmC),
   (fourCC "esds", Cat.bdEsds), (fourCC "av1C", Cat.bdAv1C), (fourCC "avcC", Cat.bdAVCDecoderConfiguration),
   (fourCC "hvcC", Cat.bdHvcC), (fourCC "dac3", Cat.bdDac3), (fourCC "dOps", Cat.bdDOps), (fourCC "vpcC", Cat.bdVpcC),
   (fourCC "avc1", Cat.bdVisualSampleEntry), (fourCC "hev1", Cat.bdVisualSampleEntry), (fourCC "hvc1", Cat.bdVisualSampleEntry),
   (fourCC "encv", Cat.bdVisualSampleEntry), (fourCC "mp4v", Cat.bdVisualSampleEntry), (fourCC "av01", Cat.bdVisualSampleEntry),
   (fourCC "vp08", Cat.bdVisualSampleEntry), (fourCC "vp09", Cat.bdVisualSampleEntry), (fourCC "mp4a", Cat.bdAudioSampleEntry),
   (fourCC "enca", Cat.bdAudioSampleEntry), (fourCC "ac-3", Cat.bdAudioSampleEntry), (fourCC "Opus", Cat.bdAudioSampleEntry),
   (fourCC "ipcm", Cat.bdAudioSampleEntry), (fourCC "fpcm", Cat.bdAudioSampleEntry)]

/-- In every context, each of these codes is decoded into the Go type named beside it. -/
theorem rest_types : ∀ r ∈ restTypes, ∀ ctx, BoxMap.std.getBoxDef r.1 ctx = some r.2 := by
  intro r hr ctx
  have h1 : ∀ r ∈ restTypes, (BoxMap.std r.1).map (fun bd => (bd.goName, bd.target.isNone)) = [(r.2.goName, true)] := by
    decide +kernel
  have h2 : ∀ r ∈ restTypes, r.2 ∈ Cat.allDefs := by
    unfold restTypes
    simp only [List.forall_mem_cons]
    repeat' apply And.intro
    all_goals first
      | (simp [Cat.allDefs]; done)
      | (intro x hx; cases hx)
  exact std_def (h1 r hr) fun b hb e => goName_inj b hb r.2 (h2 r hr) e

/-- The definitions registered for a type, from their names. -/
theorem std_eq {t : BoxType} (l : List BoxDef) (hl : ∀ b ∈ l, b ∈ Cat.allDefs) (h : (BoxMap.std t).map (·.goName) = l.map (·.goName)) :
    BoxMap.std t = l := by
  have hm : ∀ b ∈ BoxMap.std t, b ∈ Cat.allDefs := fun b hb => registry_mem (r := (t, b)) (ofRegs_mem hb)
  generalize BoxMap.std t = m at h hm
  induction m generalizing l with
  | nil => cases l with
    | nil => rfl
    | cons => simp at h
  | cons x m ih => cases l with
    | nil => simp at h
    | cons y l =>
      simp only [List.map_cons, List.cons.injEq] at h
      rw [goName_inj x (hm x List.mem_cons_self) y (hl y List.mem_cons_self) h.1,
        ih l (fun b hb => hl b (List.mem_cons_of_mem _ hb)) h.2 fun b hb => hm b (List.mem_cons_of_mem _ hb)]

/-- titles, descriptions, copyright notices, performers, authors, genres (TS 26.244) -/
def assetTypes : List BoxType := ["titl", "dscp", "cprt", "perf", "auth", "gnre"].map fourCC

/-- In `udta`, but not in an `ilst` there, these types are assets of 3GPP. -/
theorem asset_types : ∀ t ∈ assetTypes, ∀ ctx : Ctx, ctx.underUdta = true → ctx.underIlst = false →
    BoxMap.std.getBoxDef t ctx = some Cat.bdUdta3GppString := by
  have h : ∀ t ∈ assetTypes, (BoxMap.std t).map (·.goName) = ([Cat.bdUdta3GppString] : List BoxDef).map (·.goName) ∨
      (BoxMap.std t).map (·.goName) = [Cat.bdUdta3GppString, Cat.bdIlstMetaContainer].map (·.goName) := by decide +kernel
  intro t ht ctx hu hi
  rcases h t ht with h | h
  · simp [BoxMap.getBoxDef, std_eq [Cat.bdUdta3GppString] (by simp [Cat.allDefs]) h, defLoop, BoxDef.isFor, Cat.bdUdta3GppString, hu]
  · simp [BoxMap.getBoxDef, std_eq [Cat.bdUdta3GppString, Cat.bdIlstMetaContainer] (by simp [Cat.allDefs]) h, defLoop, BoxDef.isFor,
      Cat.bdUdta3GppString, Cat.bdIlstMetaContainer, hu, hi]

/-- The items of the metadata of iTunes; `©` is the byte A9. -/
def itemTypes : List BoxType :=
  ["----", "aART", "akID", "apID", "atID", "cmID", "cnID", "covr", "cpil", "cprt", "desc", "disk", "egid", "geID", "gnre", "pcst",
   "pgap", "plID", "purd", "purl", "rtng", "sfID", "soaa", "soal", "soar", "soco", "sonm", "sosn", "stik", "tmpo", "trkn", "tven",
   "tves", "tvnn", "tvsh", "tvsn", "©ART", "©alb", "©cmt", "©com", "©day", "©gen", "©grp",
   "©nam", "©too", "©wrt"].map fourCC

/-- In `ilst`, but not in an item there, these types are items of the metadata: containers. -/
theorem item_types : ∀ t ∈ itemTypes, ∀ ctx : Ctx, ctx.underIlst = true → ctx.underIlstMeta = false →
    BoxMap.std.getBoxDef t ctx = some Cat.bdIlstMetaContainer := by
  have h : ∀ t ∈ itemTypes, (BoxMap.std t).map (·.goName) = ([Cat.bdIlstMetaContainer] : List BoxDef).map (·.goName) ∨
      (BoxMap.std t).map (·.goName) = [Cat.bdUdta3GppString, Cat.bdIlstMetaContainer].map (·.goName) := by decide +kernel
  intro t ht ctx hu hi
  rcases h t ht with h | h
  · simp [BoxMap.getBoxDef, std_eq [Cat.bdIlstMetaContainer] (by simp [Cat.allDefs]) h, defLoop, BoxDef.isFor, Cat.bdIlstMetaContainer, hu, hi]
  · simp [BoxMap.getBoxDef, std_eq [Cat.bdUdta3GppString, Cat.bdIlstMetaContainer] (by simp [Cat.allDefs]) h, defLoop, BoxDef.isFor,
      Cat.bdUdta3GppString, Cat.bdIlstMetaContainer, hu, hi]

/-- In an item of the metadata, `data` is its value; in a free-form item, `mean` and `name` are strings. -/
theorem value_types (ctx : Ctx) :
    (ctx.underIlstMeta = true → BoxMap.std.getBoxDef (fourCC "data") ctx = some Cat.bdData) ∧
    (ctx.underIlstFreeMeta = true → BoxMap.std.getBoxDef (fourCC "mean") ctx = some Cat.bdStringData ∧
      BoxMap.std.getBoxDef (fourCC "name") ctx = some Cat.bdStringData) := by
  have h1 : BoxMap.std (fourCC "data") = [Cat.bdData] := std_eq _ (by simp [Cat.allDefs]) (by decide +kernel)
  have h2 : BoxMap.std (fourCC "mean") = [Cat.bdStringData] := std_eq _ (by simp [Cat.allDefs]) (by decide +kernel)
  have h3 : BoxMap.std (fourCC "name") = [Cat.bdStringData] := std_eq _ (by simp [Cat.allDefs]) (by decide +kernel)
  refine ⟨fun h => ?_, fun h => ⟨?_, ?_⟩⟩
  · simp [BoxMap.getBoxDef, h1, defLoop, BoxDef.isFor, Cat.bdData, h]
  · simp [BoxMap.getBoxDef, h2, defLoop, BoxDef.isFor, Cat.bdStringData, h]
  · simp [BoxMap.getBoxDef, h3, defLoop, BoxDef.isFor, Cat.bdStringData, h]

/-- Every registration of the library is one of those above or of `isoTypes`. -/
theorem types_complete : ∀ r ∈ Cat.registry,
    r.1 ∈ (isoTypes ++ restTypes).map (·.1) ∨ r.1 ∈ assetTypes ∨ r.1 ∈ itemTypes ∨
      r.1 = fourCC "data" ∨ r.1 = fourCC "mean" ∨ r.1 = fourCC "name" := by
  decide +kernel

end Mp4.Props
