import Verif.Model.Catalog

/-!
# The methods of the box types have an answer for every field they are asked about

Except that the answers of `Elst` and `Tfra` exist only for the registered versions.
-/

set_option linter.unusedSimpArgs false

namespace Mp4

mutual
/-- In every struct of the type, the methods have an answer for every field whose size or number of elements is
not fixed; `rc`: the methods of the box, which have to have answers only for boxes that satisfy `ok`. -/
def Ty.Total (rc : Cfo) (ok : SV → Prop) : Ty → Prop
  | .ptr t => t.Total rc ok
  | .arr _ t => t.Total rc ok
  | .slice t => t.Total rc ok
  | .struct c fs => fs.Total rc ok false c
  | _ => True
/-- As `Ty.Total`, for fields; `top`: the struct is the box. -/
def Fields.Total (rc : Cfo) (ok : SV → Prop) (top : Bool) (c : Option Cfo) : Fields → Prop
  | .nil => True
  | .cons f t fs =>
    (∀ ctx sv, (top = true ∨ c = none → ok sv) →
      (f.sizeDyn = true → ((c.getD rc).size f.name ctx sv).isSome = true) ∧
      (f.lenDyn = true → ((c.getD rc).length f.name ctx sv).isSome = true)) ∧
    t.Total rc ok ∧ fs.Total rc ok top c
end

mutual
theorem Ty.Total.mono {rc : Cfo} {p q : SV → Prop} (h : ∀ sv, q sv → p sv) :
    ∀ t : Ty, t.Total rc p → t.Total rc q
  | .ptr t, h' => by simp only [Ty.Total] at *; exact Ty.Total.mono h t h'
  | .arr _ t, h' => by simp only [Ty.Total] at *; exact Ty.Total.mono h t h'
  | .slice t, h' => by simp only [Ty.Total] at *; exact Ty.Total.mono h t h'
  | .struct c fs, h' => by simp only [Ty.Total] at *; exact Fields.Total.mono h fs h'
  | .uint _, _ => by simp only [Ty.Total]
  | .int _, _ => by simp only [Ty.Total]
  | .bool, _ => by simp only [Ty.Total]
  | .str, _ => by simp only [Ty.Total]
theorem Fields.Total.mono {rc : Cfo} {p q : SV → Prop} (h : ∀ sv, q sv → p sv) {top : Bool}
    {c : Option Cfo} : ∀ fs : Fields, fs.Total rc p top c → fs.Total rc q top c
  | .nil, _ => by simp only [Fields.Total]
  | .cons f t fs, h' => by
    simp only [Fields.Total] at *
    exact ⟨fun ctx sv hq => h'.1 ctx sv (fun x => h sv (hq x)), Ty.Total.mono h t h'.2.1,
      Fields.Total.mono h fs h'.2.2⟩
end

theorem fullBoxTy_total (rc : Cfo) (ok : SV → Prop) : fullBoxTy.Total rc ok := by
  simp [fullBoxTy, Ty.Total, Fields.Total]

theorem tySampleEntry_total (rc : Cfo) (ok : SV → Prop) : Cat.tySampleEntry.Total rc ok := by
  simp [Cat.tySampleEntry, Cat.fsSampleEntry, Fields.ofList, Ty.Total, Fields.Total, Cfo.base, Cfo.counted0, Cfo.counted]

theorem tyCttsEntry_total (rc : Cfo) (ok : SV → Prop) : Cat.tyCttsEntry.Total rc ok := by
  simp [Cat.tyCttsEntry, Cat.fsCttsEntry, Fields.ofList, Ty.Total, Fields.Total, Cfo.base, Cfo.counted0, Cfo.counted]

theorem tyElstEntry_total (rc : Cfo) (ok : SV → Prop) : Cat.tyElstEntry.Total rc ok := by
  simp [Cat.tyElstEntry, Cat.fsElstEntry, Fields.ofList, Ty.Total, Fields.Total, Cfo.base, Cfo.counted0, Cfo.counted]

theorem tyCompatibleBrandElem_total (rc : Cfo) (ok : SV → Prop) : Cat.tyCompatibleBrandElem.Total rc ok := by
  simp [Cat.tyCompatibleBrandElem, Cat.fsCompatibleBrandElem, Fields.ofList, Ty.Total, Fields.Total, Cfo.base, Cfo.counted0, Cfo.counted]

theorem tyHEVCNalu_total (rc : Cfo) (ok : SV → Prop) : Cat.tyHEVCNalu.Total rc ok := by
  simp [Cat.tyHEVCNalu, Cat.fsHEVCNalu, Fields.ofList, Ty.Total, Fields.Total, Cfo.base, cfoHEVCNalu, Cfo.counted0, Cfo.counted]

theorem tyHEVCNaluArray_total (rc : Cfo) (ok : SV → Prop) : Cat.tyHEVCNaluArray.Total rc ok := by
  simp [Cat.tyHEVCNaluArray, Cat.fsHEVCNaluArray, Fields.ofList, Ty.Total, Fields.Total, Cfo.base, cfoHEVCNaluArray, tyHEVCNalu_total, Cfo.counted0, Cfo.counted]

theorem tyAVCParameterSet_total (rc : Cfo) (ok : SV → Prop) : Cat.tyAVCParameterSet.Total rc ok := by
  simp [Cat.tyAVCParameterSet, Cat.fsAVCParameterSet, Fields.ofList, Ty.Total, Fields.Total, Cfo.base, cfoAVCParameterSet, Cfo.counted0, Cfo.counted]

theorem tySbgpEntry_total (rc : Cfo) (ok : SV → Prop) : Cat.tySbgpEntry.Total rc ok := by
  simp [Cat.tySbgpEntry, Cat.fsSbgpEntry, Fields.ofList, Ty.Total, Fields.Total, Cfo.base, Cfo.counted0, Cfo.counted]

theorem tySdtpSampleElem_total (rc : Cfo) (ok : SV → Prop) : Cat.tySdtpSampleElem.Total rc ok := by
  simp [Cat.tySdtpSampleElem, Cat.fsSdtpSampleElem, Fields.ofList, Ty.Total, Fields.Total, Cfo.base, Cfo.counted0, Cfo.counted]

theorem tyRollDistanceWithLength_total (rc : Cfo) (ok : SV → Prop) : Cat.tyRollDistanceWithLength.Total rc ok := by
  simp [Cat.tyRollDistanceWithLength, Cat.fsRollDistanceWithLength, Fields.ofList, Ty.Total, Fields.Total, Cfo.base, Cfo.counted0, Cfo.counted]

theorem tyAlternativeStartupEntryOpt_total (rc : Cfo) (ok : SV → Prop) : Cat.tyAlternativeStartupEntryOpt.Total rc ok := by
  simp [Cat.tyAlternativeStartupEntryOpt, Cat.fsAlternativeStartupEntryOpt, Fields.ofList, Ty.Total, Fields.Total, Cfo.base, Cfo.counted0, Cfo.counted]

theorem tyAlternativeStartupEntry_total (rc : Cfo) (ok : SV → Prop) : Cat.tyAlternativeStartupEntry.Total rc ok := by
  simp [Cat.tyAlternativeStartupEntry, Cat.fsAlternativeStartupEntry, Fields.ofList, Ty.Total, Fields.Total, Cfo.base, cfoAlternativeStartupEntry, tyAlternativeStartupEntryOpt_total, Cfo.counted0, Cfo.counted]

theorem tyAlternativeStartupEntryL_total (rc : Cfo) (ok : SV → Prop) : Cat.tyAlternativeStartupEntryL.Total rc ok := by
  simp [Cat.tyAlternativeStartupEntryL, Cat.fsAlternativeStartupEntryL, Fields.ofList, Ty.Total, Fields.Total, Cfo.base, cfoAlternativeStartupEntryL, tyAlternativeStartupEntry_total, Cfo.counted0, Cfo.counted]

theorem tyVisualRandomAccessEntry_total (rc : Cfo) (ok : SV → Prop) : Cat.tyVisualRandomAccessEntry.Total rc ok := by
  simp [Cat.tyVisualRandomAccessEntry, Cat.fsVisualRandomAccessEntry, Fields.ofList, Ty.Total, Fields.Total, Cfo.base, Cfo.counted0, Cfo.counted]

theorem tyVisualRandomAccessEntryL_total (rc : Cfo) (ok : SV → Prop) : Cat.tyVisualRandomAccessEntryL.Total rc ok := by
  simp [Cat.tyVisualRandomAccessEntryL, Cat.fsVisualRandomAccessEntryL, Fields.ofList, Ty.Total, Fields.Total, Cfo.base, tyVisualRandomAccessEntry_total, Cfo.counted0, Cfo.counted]

theorem tyTemporalLevelEntry_total (rc : Cfo) (ok : SV → Prop) : Cat.tyTemporalLevelEntry.Total rc ok := by
  simp [Cat.tyTemporalLevelEntry, Cat.fsTemporalLevelEntry, Fields.ofList, Ty.Total, Fields.Total, Cfo.base, Cfo.counted0, Cfo.counted]

theorem tyTemporalLevelEntryL_total (rc : Cfo) (ok : SV → Prop) : Cat.tyTemporalLevelEntryL.Total rc ok := by
  simp [Cat.tyTemporalLevelEntryL, Cat.fsTemporalLevelEntryL, Fields.ofList, Ty.Total, Fields.Total, Cfo.base, tyTemporalLevelEntry_total, Cfo.counted0, Cfo.counted]

theorem tySidxReference_total (rc : Cfo) (ok : SV → Prop) : Cat.tySidxReference.Total rc ok := by
  simp [Cat.tySidxReference, Cat.fsSidxReference, Fields.ofList, Ty.Total, Fields.Total, Cfo.base, Cfo.counted0, Cfo.counted]

theorem tyStscEntry_total (rc : Cfo) (ok : SV → Prop) : Cat.tyStscEntry.Total rc ok := by
  simp [Cat.tyStscEntry, Cat.fsStscEntry, Fields.ofList, Ty.Total, Fields.Total, Cfo.base, Cfo.counted0, Cfo.counted]

theorem tySttsEntry_total (rc : Cfo) (ok : SV → Prop) : Cat.tySttsEntry.Total rc ok := by
  simp [Cat.tySttsEntry, Cat.fsSttsEntry, Fields.ofList, Ty.Total, Fields.Total, Cfo.base, Cfo.counted0, Cfo.counted]

theorem tyTrunEntry_total (rc : Cfo) (ok : SV → Prop) : Cat.tyTrunEntry.Total rc ok := by
  simp [Cat.tyTrunEntry, Cat.fsTrunEntry, Fields.ofList, Ty.Total, Fields.Total, Cfo.base, Cfo.counted0, Cfo.counted]

theorem tyESDescriptor_total (rc : Cfo) (ok : SV → Prop) : Cat.tyESDescriptor.Total rc ok := by
  simp [Cat.tyESDescriptor, Cat.fsESDescriptor, Fields.ofList, Ty.Total, Fields.Total, Cfo.base, cfoESDescriptor, Cfo.counted0, Cfo.counted]

theorem tyDecoderConfigDescriptor_total (rc : Cfo) (ok : SV → Prop) : Cat.tyDecoderConfigDescriptor.Total rc ok := by
  simp [Cat.tyDecoderConfigDescriptor, Cat.fsDecoderConfigDescriptor, Fields.ofList, Ty.Total, Fields.Total, Cfo.base, Cfo.counted0, Cfo.counted]

theorem tyDescriptor_total (rc : Cfo) (ok : SV → Prop) : Cat.tyDescriptor.Total rc ok := by
  simp [Cat.tyDescriptor, Cat.fsDescriptor, Fields.ofList, Ty.Total, Fields.Total, Cfo.base, cfoDescriptor, tyDecoderConfigDescriptor_total, tyESDescriptor_total, Cfo.counted0, Cfo.counted]

theorem tyPsshKID_total (rc : Cfo) (ok : SV → Prop) : Cat.tyPsshKID.Total rc ok := by
  simp [Cat.tyPsshKID, Cat.fsPsshKID, Fields.ofList, Ty.Total, Fields.Total, Cfo.base, Cfo.counted0, Cfo.counted]

theorem tyData_total (rc : Cfo) (ok : SV → Prop) : Cat.tyData.Total rc ok := by
  simp [Cat.tyData, Cat.fsData, Fields.ofList, Ty.Total, Fields.Total, Cfo.base, Cfo.counted0, Cfo.counted]

theorem tyKey_total (rc : Cfo) (ok : SV → Prop) : Cat.tyKey.Total rc ok := by
  simp [Cat.tyKey, Cat.fsKey, Fields.ofList, Ty.Total, Fields.Total, Cfo.base, cfoKey, Cfo.counted0, Cfo.counted]

theorem bdUdta3GppString_total : Cat.bdUdta3GppString.fields.Total Cat.bdUdta3GppString.cfo (fun _ => True) true (some Cat.bdUdta3GppString.cfo) := by
  simp [Cat.bdUdta3GppString, Cat.fsUdta3GppString, Fields.ofList, Ty.Total, Fields.Total, fullBoxTy_total, Cfo.counted, Cfo.counted0, Cfo.base]

theorem bdVisualSampleEntry_total : Cat.bdVisualSampleEntry.fields.Total Cat.bdVisualSampleEntry.cfo (fun _ => True) true (some Cat.bdVisualSampleEntry.cfo) := by
  simp [Cat.bdVisualSampleEntry, Cat.fsVisualSampleEntry, Fields.ofList, Ty.Total, Fields.Total, tySampleEntry_total, Cfo.counted, Cfo.counted0, Cfo.base]

theorem bdAv1C_total : Cat.bdAv1C.fields.Total Cat.bdAv1C.cfo (fun _ => True) true (some Cat.bdAv1C.cfo) := by
  simp [Cat.bdAv1C, Cat.fsAv1C, Fields.ofList, Ty.Total, Fields.Total, Cfo.counted, Cfo.counted0, Cfo.base]

theorem bdAudioSampleEntry_total : Cat.bdAudioSampleEntry.fields.Total Cat.bdAudioSampleEntry.cfo (fun _ => True) true (some Cat.bdAudioSampleEntry.cfo) := by
  simp [Cat.bdAudioSampleEntry, Cat.fsAudioSampleEntry, Fields.ofList, Ty.Total, Fields.Total, tySampleEntry_total, cfoAudioSampleEntry, Cfo.counted, Cfo.counted0, Cfo.base]
  intros; repeat' split
  all_goals rfl

theorem bdDac3_total : Cat.bdDac3.fields.Total Cat.bdDac3.cfo (fun _ => True) true (some Cat.bdDac3.cfo) := by
  simp [Cat.bdDac3, Cat.fsDac3, Fields.ofList, Ty.Total, Fields.Total, Cfo.counted, Cfo.counted0, Cfo.base]

theorem bdBtrt_total : Cat.bdBtrt.fields.Total Cat.bdBtrt.cfo (fun _ => True) true (some Cat.bdBtrt.cfo) := by
  simp [Cat.bdBtrt, Cat.fsBtrt, Fields.ofList, Ty.Total, Fields.Total, Cfo.counted, Cfo.counted0, Cfo.base]

theorem bdCo64_total : Cat.bdCo64.fields.Total Cat.bdCo64.cfo (fun _ => True) true (some Cat.bdCo64.cfo) := by
  simp [Cat.bdCo64, Cat.fsCo64, Fields.ofList, Ty.Total, Fields.Total, fullBoxTy_total, cfoCo64, Cfo.counted, Cfo.counted0, Cfo.base]

theorem bdColr_total : Cat.bdColr.fields.Total Cat.bdColr.cfo (fun _ => True) true (some Cat.bdColr.cfo) := by
  simp [Cat.bdColr, Cat.fsColr, Fields.ofList, Ty.Total, Fields.Total, cfoColr, Cfo.counted, Cfo.counted0, Cfo.base]

theorem bdCslg_total : Cat.bdCslg.fields.Total Cat.bdCslg.cfo (fun _ => True) true (some Cat.bdCslg.cfo) := by
  simp [Cat.bdCslg, Cat.fsCslg, Fields.ofList, Ty.Total, Fields.Total, fullBoxTy_total, Cfo.counted, Cfo.counted0, Cfo.base]

theorem bdCtts_total : Cat.bdCtts.fields.Total Cat.bdCtts.cfo (fun _ => True) true (some Cat.bdCtts.cfo) := by
  simp [Cat.bdCtts, Cat.fsCtts, Fields.ofList, Ty.Total, Fields.Total, fullBoxTy_total, tyCttsEntry_total, cfoCtts, Cfo.counted, Cfo.counted0, Cfo.base]

theorem bdDinf_total : Cat.bdDinf.fields.Total Cat.bdDinf.cfo (fun _ => True) true (some Cat.bdDinf.cfo) := by
  simp [Cat.bdDinf, Cat.fsDinf, Fields.ofList, Ty.Total, Fields.Total, Cfo.counted, Cfo.counted0, Cfo.base]

theorem bdDref_total : Cat.bdDref.fields.Total Cat.bdDref.cfo (fun _ => True) true (some Cat.bdDref.cfo) := by
  simp [Cat.bdDref, Cat.fsDref, Fields.ofList, Ty.Total, Fields.Total, fullBoxTy_total, Cfo.counted, Cfo.counted0, Cfo.base]

theorem bdUrl_total : Cat.bdUrl.fields.Total Cat.bdUrl.cfo (fun _ => True) true (some Cat.bdUrl.cfo) := by
  simp [Cat.bdUrl, Cat.fsUrl, Fields.ofList, Ty.Total, Fields.Total, fullBoxTy_total, Cfo.counted, Cfo.counted0, Cfo.base]

theorem bdUrn_total : Cat.bdUrn.fields.Total Cat.bdUrn.cfo (fun _ => True) true (some Cat.bdUrn.cfo) := by
  simp [Cat.bdUrn, Cat.fsUrn, Fields.ofList, Ty.Total, Fields.Total, fullBoxTy_total, Cfo.counted, Cfo.counted0, Cfo.base]

theorem bdEdts_total : Cat.bdEdts.fields.Total Cat.bdEdts.cfo (fun _ => True) true (some Cat.bdEdts.cfo) := by
  simp [Cat.bdEdts, Cat.fsEdts, Fields.ofList, Ty.Total, Fields.Total, Cfo.counted, Cfo.counted0, Cfo.base]

theorem bdElst_total : Cat.bdElst.fields.Total Cat.bdElst.cfo (fun sv => sv.version = 0 ∨ sv.version = 1) true (some Cat.bdElst.cfo) := by
  simp [Cat.bdElst, Cat.fsElst, Fields.ofList, Ty.Total, Fields.Total, fullBoxTy_total, tyElstEntry_total, cfoElst, Cfo.counted, Cfo.counted0, Cfo.base]
  intros
  rename_i h
  rcases h with h | h <;> simp [h]

theorem bdEmsg_total : Cat.bdEmsg.fields.Total Cat.bdEmsg.cfo (fun _ => True) true (some Cat.bdEmsg.cfo) := by
  simp [Cat.bdEmsg, Cat.fsEmsg, Fields.ofList, Ty.Total, Fields.Total, fullBoxTy_total, Cfo.counted, Cfo.counted0, Cfo.base]

theorem bdFiel_total : Cat.bdFiel.fields.Total Cat.bdFiel.cfo (fun _ => True) true (some Cat.bdFiel.cfo) := by
  simp [Cat.bdFiel, Cat.fsFiel, Fields.ofList, Ty.Total, Fields.Total, Cfo.counted, Cfo.counted0, Cfo.base]

theorem bdFree_total : Cat.bdFree.fields.Total Cat.bdFree.cfo (fun _ => True) true (some Cat.bdFree.cfo) := by
  simp [Cat.bdFree, Cat.fsFreeSpace, Fields.ofList, Ty.Total, Fields.Total, Cfo.counted, Cfo.counted0, Cfo.base]

theorem bdSkip_total : Cat.bdSkip.fields.Total Cat.bdSkip.cfo (fun _ => True) true (some Cat.bdSkip.cfo) := by
  simp [Cat.bdSkip, Cat.fsFreeSpace, Fields.ofList, Ty.Total, Fields.Total, Cfo.counted, Cfo.counted0, Cfo.base]

theorem bdFrma_total : Cat.bdFrma.fields.Total Cat.bdFrma.cfo (fun _ => True) true (some Cat.bdFrma.cfo) := by
  simp [Cat.bdFrma, Cat.fsFrma, Fields.ofList, Ty.Total, Fields.Total, Cfo.counted, Cfo.counted0, Cfo.base]

theorem bdFtyp_total : Cat.bdFtyp.fields.Total Cat.bdFtyp.cfo (fun _ => True) true (some Cat.bdFtyp.cfo) := by
  simp [Cat.bdFtyp, Cat.fsFtyp, Fields.ofList, Ty.Total, Fields.Total, tyCompatibleBrandElem_total, Cfo.counted, Cfo.counted0, Cfo.base]

theorem bdHdlr_total : Cat.bdHdlr.fields.Total Cat.bdHdlr.cfo (fun _ => True) true (some Cat.bdHdlr.cfo) := by
  simp [Cat.bdHdlr, Cat.fsHdlr, Fields.ofList, Ty.Total, Fields.Total, fullBoxTy_total, Cfo.counted, Cfo.counted0, Cfo.base]

theorem bdHvcC_total : Cat.bdHvcC.fields.Total Cat.bdHvcC.cfo (fun _ => True) true (some Cat.bdHvcC.cfo) := by
  simp [Cat.bdHvcC, Cat.fsHvcC, Fields.ofList, Ty.Total, Fields.Total, tyHEVCNaluArray_total, cfoHvcC, Cfo.counted, Cfo.counted0, Cfo.base]

theorem bdMdat_total : Cat.bdMdat.fields.Total Cat.bdMdat.cfo (fun _ => True) true (some Cat.bdMdat.cfo) := by
  simp [Cat.bdMdat, Cat.fsMdat, Fields.ofList, Ty.Total, Fields.Total, Cfo.counted, Cfo.counted0, Cfo.base]

theorem bdMdhd_total : Cat.bdMdhd.fields.Total Cat.bdMdhd.cfo (fun _ => True) true (some Cat.bdMdhd.cfo) := by
  simp [Cat.bdMdhd, Cat.fsMdhd, Fields.ofList, Ty.Total, Fields.Total, fullBoxTy_total, Cfo.counted, Cfo.counted0, Cfo.base]

theorem bdMdia_total : Cat.bdMdia.fields.Total Cat.bdMdia.cfo (fun _ => True) true (some Cat.bdMdia.cfo) := by
  simp [Cat.bdMdia, Cat.fsMdia, Fields.ofList, Ty.Total, Fields.Total, Cfo.counted, Cfo.counted0, Cfo.base]

theorem bdMehd_total : Cat.bdMehd.fields.Total Cat.bdMehd.cfo (fun _ => True) true (some Cat.bdMehd.cfo) := by
  simp [Cat.bdMehd, Cat.fsMehd, Fields.ofList, Ty.Total, Fields.Total, fullBoxTy_total, Cfo.counted, Cfo.counted0, Cfo.base]

theorem bdMeta_total : Cat.bdMeta.fields.Total Cat.bdMeta.cfo (fun _ => True) true (some Cat.bdMeta.cfo) := by
  simp [Cat.bdMeta, Cat.fsMeta, Fields.ofList, Ty.Total, Fields.Total, fullBoxTy_total, Cfo.counted, Cfo.counted0, Cfo.base]

theorem bdMfhd_total : Cat.bdMfhd.fields.Total Cat.bdMfhd.cfo (fun _ => True) true (some Cat.bdMfhd.cfo) := by
  simp [Cat.bdMfhd, Cat.fsMfhd, Fields.ofList, Ty.Total, Fields.Total, fullBoxTy_total, Cfo.counted, Cfo.counted0, Cfo.base]

theorem bdMfra_total : Cat.bdMfra.fields.Total Cat.bdMfra.cfo (fun _ => True) true (some Cat.bdMfra.cfo) := by
  simp [Cat.bdMfra, Cat.fsMfra, Fields.ofList, Ty.Total, Fields.Total, Cfo.counted, Cfo.counted0, Cfo.base]

theorem bdMfro_total : Cat.bdMfro.fields.Total Cat.bdMfro.cfo (fun _ => True) true (some Cat.bdMfro.cfo) := by
  simp [Cat.bdMfro, Cat.fsMfro, Fields.ofList, Ty.Total, Fields.Total, fullBoxTy_total, Cfo.counted, Cfo.counted0, Cfo.base]

theorem bdMinf_total : Cat.bdMinf.fields.Total Cat.bdMinf.cfo (fun _ => True) true (some Cat.bdMinf.cfo) := by
  simp [Cat.bdMinf, Cat.fsMinf, Fields.ofList, Ty.Total, Fields.Total, Cfo.counted, Cfo.counted0, Cfo.base]

theorem bdMoof_total : Cat.bdMoof.fields.Total Cat.bdMoof.cfo (fun _ => True) true (some Cat.bdMoof.cfo) := by
  simp [Cat.bdMoof, Cat.fsMoof, Fields.ofList, Ty.Total, Fields.Total, Cfo.counted, Cfo.counted0, Cfo.base]

theorem bdMoov_total : Cat.bdMoov.fields.Total Cat.bdMoov.cfo (fun _ => True) true (some Cat.bdMoov.cfo) := by
  simp [Cat.bdMoov, Cat.fsMoov, Fields.ofList, Ty.Total, Fields.Total, Cfo.counted, Cfo.counted0, Cfo.base]

theorem bdMvex_total : Cat.bdMvex.fields.Total Cat.bdMvex.cfo (fun _ => True) true (some Cat.bdMvex.cfo) := by
  simp [Cat.bdMvex, Cat.fsMvex, Fields.ofList, Ty.Total, Fields.Total, Cfo.counted, Cfo.counted0, Cfo.base]

theorem bdMvhd_total : Cat.bdMvhd.fields.Total Cat.bdMvhd.cfo (fun _ => True) true (some Cat.bdMvhd.cfo) := by
  simp [Cat.bdMvhd, Cat.fsMvhd, Fields.ofList, Ty.Total, Fields.Total, fullBoxTy_total, Cfo.counted, Cfo.counted0, Cfo.base]

theorem bdSaio_total : Cat.bdSaio.fields.Total Cat.bdSaio.cfo (fun _ => True) true (some Cat.bdSaio.cfo) := by
  simp [Cat.bdSaio, Cat.fsSaio, Fields.ofList, Ty.Total, Fields.Total, fullBoxTy_total, cfoSaio, Cfo.counted, Cfo.counted0, Cfo.base]

theorem bdSaiz_total : Cat.bdSaiz.fields.Total Cat.bdSaiz.cfo (fun _ => True) true (some Cat.bdSaiz.cfo) := by
  simp [Cat.bdSaiz, Cat.fsSaiz, Fields.ofList, Ty.Total, Fields.Total, fullBoxTy_total, cfoSaiz, Cfo.counted, Cfo.counted0, Cfo.base]

theorem bdAVCDecoderConfiguration_total : Cat.bdAVCDecoderConfiguration.fields.Total Cat.bdAVCDecoderConfiguration.cfo (fun _ => True) true (some Cat.bdAVCDecoderConfiguration.cfo) := by
  simp [Cat.bdAVCDecoderConfiguration, Cat.fsAVCDecoderConfiguration, Fields.ofList, Ty.Total, Fields.Total, tyAVCParameterSet_total, cfoAVCDecoderConfiguration, Cfo.counted, Cfo.counted0, Cfo.base]

theorem bdPixelAspectRatioBox_total : Cat.bdPixelAspectRatioBox.fields.Total Cat.bdPixelAspectRatioBox.cfo (fun _ => True) true (some Cat.bdPixelAspectRatioBox.cfo) := by
  simp [Cat.bdPixelAspectRatioBox, Cat.fsPixelAspectRatioBox, Fields.ofList, Ty.Total, Fields.Total, Cfo.counted, Cfo.counted0, Cfo.base]

theorem bdXMLSubtitleSampleEntry_total : Cat.bdXMLSubtitleSampleEntry.fields.Total Cat.bdXMLSubtitleSampleEntry.cfo (fun _ => True) true (some Cat.bdXMLSubtitleSampleEntry.cfo) := by
  simp [Cat.bdXMLSubtitleSampleEntry, Cat.fsXMLSubtitleSampleEntry, Fields.ofList, Ty.Total, Fields.Total, tySampleEntry_total, Cfo.counted, Cfo.counted0, Cfo.base]

theorem bdTextSubtitleSampleEntry_total : Cat.bdTextSubtitleSampleEntry.fields.Total Cat.bdTextSubtitleSampleEntry.cfo (fun _ => True) true (some Cat.bdTextSubtitleSampleEntry.cfo) := by
  simp [Cat.bdTextSubtitleSampleEntry, Cat.fsTextSubtitleSampleEntry, Fields.ofList, Ty.Total, Fields.Total, tySampleEntry_total, Cfo.counted, Cfo.counted0, Cfo.base]

theorem bdSbgp_total : Cat.bdSbgp.fields.Total Cat.bdSbgp.cfo (fun _ => True) true (some Cat.bdSbgp.cfo) := by
  simp [Cat.bdSbgp, Cat.fsSbgp, Fields.ofList, Ty.Total, Fields.Total, fullBoxTy_total, tySbgpEntry_total, cfoSbgp, Cfo.counted, Cfo.counted0, Cfo.base]

theorem bdSchi_total : Cat.bdSchi.fields.Total Cat.bdSchi.cfo (fun _ => True) true (some Cat.bdSchi.cfo) := by
  simp [Cat.bdSchi, Cat.fsSchi, Fields.ofList, Ty.Total, Fields.Total, Cfo.counted, Cfo.counted0, Cfo.base]

theorem bdSchm_total : Cat.bdSchm.fields.Total Cat.bdSchm.cfo (fun _ => True) true (some Cat.bdSchm.cfo) := by
  simp [Cat.bdSchm, Cat.fsSchm, Fields.ofList, Ty.Total, Fields.Total, fullBoxTy_total, Cfo.counted, Cfo.counted0, Cfo.base]

theorem bdSdtp_total : Cat.bdSdtp.fields.Total Cat.bdSdtp.cfo (fun _ => True) true (some Cat.bdSdtp.cfo) := by
  simp [Cat.bdSdtp, Cat.fsSdtp, Fields.ofList, Ty.Total, Fields.Total, fullBoxTy_total, tySdtpSampleElem_total, Cfo.counted, Cfo.counted0, Cfo.base]

theorem bdSgpd_total : Cat.bdSgpd.fields.Total Cat.bdSgpd.cfo (fun _ => True) true (some Cat.bdSgpd.cfo) := by
  simp [Cat.bdSgpd, Cat.fsSgpd, Fields.ofList, Ty.Total, Fields.Total, fullBoxTy_total, tyAlternativeStartupEntry_total, tyAlternativeStartupEntryL_total, tyRollDistanceWithLength_total, tyTemporalLevelEntry_total, tyTemporalLevelEntryL_total, tyVisualRandomAccessEntry_total, tyVisualRandomAccessEntryL_total, cfoSgpd, Cfo.counted, Cfo.counted0, Cfo.base]
  refine ⟨?_, ?_, ?_, ?_, ?_, ?_⟩ <;> (intros; split <;> rfl)

theorem bdSidx_total : Cat.bdSidx.fields.Total Cat.bdSidx.cfo (fun _ => True) true (some Cat.bdSidx.cfo) := by
  simp [Cat.bdSidx, Cat.fsSidx, Fields.ofList, Ty.Total, Fields.Total, fullBoxTy_total, tySidxReference_total, cfoSidx, Cfo.counted, Cfo.counted0, Cfo.base]

theorem bdSinf_total : Cat.bdSinf.fields.Total Cat.bdSinf.cfo (fun _ => True) true (some Cat.bdSinf.cfo) := by
  simp [Cat.bdSinf, Cat.fsSinf, Fields.ofList, Ty.Total, Fields.Total, Cfo.counted, Cfo.counted0, Cfo.base]

theorem bdSmhd_total : Cat.bdSmhd.fields.Total Cat.bdSmhd.cfo (fun _ => True) true (some Cat.bdSmhd.cfo) := by
  simp [Cat.bdSmhd, Cat.fsSmhd, Fields.ofList, Ty.Total, Fields.Total, fullBoxTy_total, Cfo.counted, Cfo.counted0, Cfo.base]

theorem bdStbl_total : Cat.bdStbl.fields.Total Cat.bdStbl.cfo (fun _ => True) true (some Cat.bdStbl.cfo) := by
  simp [Cat.bdStbl, Cat.fsStbl, Fields.ofList, Ty.Total, Fields.Total, Cfo.counted, Cfo.counted0, Cfo.base]

theorem bdStco_total : Cat.bdStco.fields.Total Cat.bdStco.cfo (fun _ => True) true (some Cat.bdStco.cfo) := by
  simp [Cat.bdStco, Cat.fsStco, Fields.ofList, Ty.Total, Fields.Total, fullBoxTy_total, cfoStco, Cfo.counted, Cfo.counted0, Cfo.base]

theorem bdStsc_total : Cat.bdStsc.fields.Total Cat.bdStsc.cfo (fun _ => True) true (some Cat.bdStsc.cfo) := by
  simp [Cat.bdStsc, Cat.fsStsc, Fields.ofList, Ty.Total, Fields.Total, fullBoxTy_total, tyStscEntry_total, cfoStsc, Cfo.counted, Cfo.counted0, Cfo.base]

theorem bdStsd_total : Cat.bdStsd.fields.Total Cat.bdStsd.cfo (fun _ => True) true (some Cat.bdStsd.cfo) := by
  simp [Cat.bdStsd, Cat.fsStsd, Fields.ofList, Ty.Total, Fields.Total, fullBoxTy_total, Cfo.counted, Cfo.counted0, Cfo.base]

theorem bdStss_total : Cat.bdStss.fields.Total Cat.bdStss.cfo (fun _ => True) true (some Cat.bdStss.cfo) := by
  simp [Cat.bdStss, Cat.fsStss, Fields.ofList, Ty.Total, Fields.Total, fullBoxTy_total, cfoStss, Cfo.counted, Cfo.counted0, Cfo.base]

theorem bdStsz_total : Cat.bdStsz.fields.Total Cat.bdStsz.cfo (fun _ => True) true (some Cat.bdStsz.cfo) := by
  simp [Cat.bdStsz, Cat.fsStsz, Fields.ofList, Ty.Total, Fields.Total, fullBoxTy_total, cfoStsz, Cfo.counted, Cfo.counted0, Cfo.base]
  intros; repeat' split
  all_goals rfl

theorem bdStts_total : Cat.bdStts.fields.Total Cat.bdStts.cfo (fun _ => True) true (some Cat.bdStts.cfo) := by
  simp [Cat.bdStts, Cat.fsStts, Fields.ofList, Ty.Total, Fields.Total, fullBoxTy_total, tySttsEntry_total, cfoStts, Cfo.counted, Cfo.counted0, Cfo.base]

theorem bdStyp_total : Cat.bdStyp.fields.Total Cat.bdStyp.cfo (fun _ => True) true (some Cat.bdStyp.cfo) := by
  simp [Cat.bdStyp, Cat.fsStyp, Fields.ofList, Ty.Total, Fields.Total, tyCompatibleBrandElem_total, Cfo.counted, Cfo.counted0, Cfo.base]

theorem bdTfdt_total : Cat.bdTfdt.fields.Total Cat.bdTfdt.cfo (fun _ => True) true (some Cat.bdTfdt.cfo) := by
  simp [Cat.bdTfdt, Cat.fsTfdt, Fields.ofList, Ty.Total, Fields.Total, fullBoxTy_total, Cfo.counted, Cfo.counted0, Cfo.base]

theorem bdTfhd_total : Cat.bdTfhd.fields.Total Cat.bdTfhd.cfo (fun _ => True) true (some Cat.bdTfhd.cfo) := by
  simp [Cat.bdTfhd, Cat.fsTfhd, Fields.ofList, Ty.Total, Fields.Total, fullBoxTy_total, Cfo.counted, Cfo.counted0, Cfo.base]

theorem bdTfra_total : Cat.bdTfra.fields.Total Cat.bdTfra.cfo (fun sv => sv.version = 0 ∨ sv.version = 1) true (some Cat.bdTfra.cfo) := by
  simp [Cat.bdTfra, Cat.fsTfra, Fields.ofList, Ty.Total, Fields.Total, fullBoxTy_total, Cat.tyTfraEntry, Cat.fsTfraEntry, cfoTfra, Cfo.counted, Cfo.counted0, Cfo.base]
  intros
  rename_i h
  rcases h with h | h <;> simp [h]

theorem bdTkhd_total : Cat.bdTkhd.fields.Total Cat.bdTkhd.cfo (fun _ => True) true (some Cat.bdTkhd.cfo) := by
  simp [Cat.bdTkhd, Cat.fsTkhd, Fields.ofList, Ty.Total, Fields.Total, fullBoxTy_total, Cfo.counted, Cfo.counted0, Cfo.base]

theorem bdTraf_total : Cat.bdTraf.fields.Total Cat.bdTraf.cfo (fun _ => True) true (some Cat.bdTraf.cfo) := by
  simp [Cat.bdTraf, Cat.fsTraf, Fields.ofList, Ty.Total, Fields.Total, Cfo.counted, Cfo.counted0, Cfo.base]

theorem bdTrak_total : Cat.bdTrak.fields.Total Cat.bdTrak.cfo (fun _ => True) true (some Cat.bdTrak.cfo) := by
  simp [Cat.bdTrak, Cat.fsTrak, Fields.ofList, Ty.Total, Fields.Total, Cfo.counted, Cfo.counted0, Cfo.base]

theorem bdTrep_total : Cat.bdTrep.fields.Total Cat.bdTrep.cfo (fun _ => True) true (some Cat.bdTrep.cfo) := by
  simp [Cat.bdTrep, Cat.fsTrep, Fields.ofList, Ty.Total, Fields.Total, fullBoxTy_total, Cfo.counted, Cfo.counted0, Cfo.base]

theorem bdTrex_total : Cat.bdTrex.fields.Total Cat.bdTrex.cfo (fun _ => True) true (some Cat.bdTrex.cfo) := by
  simp [Cat.bdTrex, Cat.fsTrex, Fields.ofList, Ty.Total, Fields.Total, fullBoxTy_total, Cfo.counted, Cfo.counted0, Cfo.base]

theorem bdTrun_total : Cat.bdTrun.fields.Total Cat.bdTrun.cfo (fun _ => True) true (some Cat.bdTrun.cfo) := by
  simp [Cat.bdTrun, Cat.fsTrun, Fields.ofList, Ty.Total, Fields.Total, fullBoxTy_total, tyTrunEntry_total, cfoTrun, Cfo.counted, Cfo.counted0, Cfo.base]

theorem bdUdta_total : Cat.bdUdta.fields.Total Cat.bdUdta.cfo (fun _ => True) true (some Cat.bdUdta.cfo) := by
  simp [Cat.bdUdta, Cat.fsUdta, Fields.ofList, Ty.Total, Fields.Total, Cfo.counted, Cfo.counted0, Cfo.base]

theorem bdVmhd_total : Cat.bdVmhd.fields.Total Cat.bdVmhd.cfo (fun _ => True) true (some Cat.bdVmhd.cfo) := by
  simp [Cat.bdVmhd, Cat.fsVmhd, Fields.ofList, Ty.Total, Fields.Total, fullBoxTy_total, Cfo.counted, Cfo.counted0, Cfo.base]

theorem bdWave_total : Cat.bdWave.fields.Total Cat.bdWave.cfo (fun _ => True) true (some Cat.bdWave.cfo) := by
  simp [Cat.bdWave, Cat.fsWave, Fields.ofList, Ty.Total, Fields.Total, Cfo.counted, Cfo.counted0, Cfo.base]

theorem bdEsds_total : Cat.bdEsds.fields.Total Cat.bdEsds.cfo (fun _ => True) true (some Cat.bdEsds.cfo) := by
  simp [Cat.bdEsds, Cat.fsEsds, Fields.ofList, Ty.Total, Fields.Total, fullBoxTy_total, tyDescriptor_total, Cfo.counted, Cfo.counted0, Cfo.base]

theorem bdWebVTTConfigurationBox_total : Cat.bdWebVTTConfigurationBox.fields.Total Cat.bdWebVTTConfigurationBox.cfo (fun _ => True) true (some Cat.bdWebVTTConfigurationBox.cfo) := by
  simp [Cat.bdWebVTTConfigurationBox, Cat.fsWebVTTConfigurationBox, Fields.ofList, Ty.Total, Fields.Total, Cfo.counted, Cfo.counted0, Cfo.base]

theorem bdWebVTTSourceLabelBox_total : Cat.bdWebVTTSourceLabelBox.fields.Total Cat.bdWebVTTSourceLabelBox.cfo (fun _ => True) true (some Cat.bdWebVTTSourceLabelBox.cfo) := by
  simp [Cat.bdWebVTTSourceLabelBox, Cat.fsWebVTTSourceLabelBox, Fields.ofList, Ty.Total, Fields.Total, Cfo.counted, Cfo.counted0, Cfo.base]

theorem bdWVTTSampleEntry_total : Cat.bdWVTTSampleEntry.fields.Total Cat.bdWVTTSampleEntry.cfo (fun _ => True) true (some Cat.bdWVTTSampleEntry.cfo) := by
  simp [Cat.bdWVTTSampleEntry, Cat.fsWVTTSampleEntry, Fields.ofList, Ty.Total, Fields.Total, tySampleEntry_total, Cfo.counted, Cfo.counted0, Cfo.base]

theorem bdVTTCueBox_total : Cat.bdVTTCueBox.fields.Total Cat.bdVTTCueBox.cfo (fun _ => True) true (some Cat.bdVTTCueBox.cfo) := by
  simp [Cat.bdVTTCueBox, Cat.fsVTTCueBox, Fields.ofList, Ty.Total, Fields.Total, Cfo.counted, Cfo.counted0, Cfo.base]

theorem bdCueSourceIDBox_total : Cat.bdCueSourceIDBox.fields.Total Cat.bdCueSourceIDBox.cfo (fun _ => True) true (some Cat.bdCueSourceIDBox.cfo) := by
  simp [Cat.bdCueSourceIDBox, Cat.fsCueSourceIDBox, Fields.ofList, Ty.Total, Fields.Total, Cfo.counted, Cfo.counted0, Cfo.base]

theorem bdCueTimeBox_total : Cat.bdCueTimeBox.fields.Total Cat.bdCueTimeBox.cfo (fun _ => True) true (some Cat.bdCueTimeBox.cfo) := by
  simp [Cat.bdCueTimeBox, Cat.fsCueTimeBox, Fields.ofList, Ty.Total, Fields.Total, Cfo.counted, Cfo.counted0, Cfo.base]

theorem bdCueIDBox_total : Cat.bdCueIDBox.fields.Total Cat.bdCueIDBox.cfo (fun _ => True) true (some Cat.bdCueIDBox.cfo) := by
  simp [Cat.bdCueIDBox, Cat.fsCueIDBox, Fields.ofList, Ty.Total, Fields.Total, Cfo.counted, Cfo.counted0, Cfo.base]

theorem bdCueSettingsBox_total : Cat.bdCueSettingsBox.fields.Total Cat.bdCueSettingsBox.cfo (fun _ => True) true (some Cat.bdCueSettingsBox.cfo) := by
  simp [Cat.bdCueSettingsBox, Cat.fsCueSettingsBox, Fields.ofList, Ty.Total, Fields.Total, Cfo.counted, Cfo.counted0, Cfo.base]

theorem bdCuePayloadBox_total : Cat.bdCuePayloadBox.fields.Total Cat.bdCuePayloadBox.cfo (fun _ => True) true (some Cat.bdCuePayloadBox.cfo) := by
  simp [Cat.bdCuePayloadBox, Cat.fsCuePayloadBox, Fields.ofList, Ty.Total, Fields.Total, Cfo.counted, Cfo.counted0, Cfo.base]

theorem bdVTTEmptyCueBox_total : Cat.bdVTTEmptyCueBox.fields.Total Cat.bdVTTEmptyCueBox.cfo (fun _ => True) true (some Cat.bdVTTEmptyCueBox.cfo) := by
  simp [Cat.bdVTTEmptyCueBox, Cat.fsVTTEmptyCueBox, Fields.ofList, Ty.Total, Fields.Total, Cfo.counted, Cfo.counted0, Cfo.base]

theorem bdVTTAdditionalTextBox_total : Cat.bdVTTAdditionalTextBox.fields.Total Cat.bdVTTAdditionalTextBox.cfo (fun _ => True) true (some Cat.bdVTTAdditionalTextBox.cfo) := by
  simp [Cat.bdVTTAdditionalTextBox, Cat.fsVTTAdditionalTextBox, Fields.ofList, Ty.Total, Fields.Total, Cfo.counted, Cfo.counted0, Cfo.base]

theorem bdPcmC_total : Cat.bdPcmC.fields.Total Cat.bdPcmC.cfo (fun _ => True) true (some Cat.bdPcmC.cfo) := by
  simp [Cat.bdPcmC, Cat.fsPcmC, Fields.ofList, Ty.Total, Fields.Total, fullBoxTy_total, Cfo.counted, Cfo.counted0, Cfo.base]

theorem bdPssh_total : Cat.bdPssh.fields.Total Cat.bdPssh.cfo (fun _ => True) true (some Cat.bdPssh.cfo) := by
  simp [Cat.bdPssh, Cat.fsPssh, Fields.ofList, Ty.Total, Fields.Total, fullBoxTy_total, tyPsshKID_total, cfoPssh, Cfo.counted, Cfo.counted0, Cfo.base]

theorem bdTenc_total : Cat.bdTenc.fields.Total Cat.bdTenc.cfo (fun _ => True) true (some Cat.bdTenc.cfo) := by
  simp [Cat.bdTenc, Cat.fsTenc, Fields.ofList, Ty.Total, Fields.Total, fullBoxTy_total, cfoTenc, Cfo.counted, Cfo.counted0, Cfo.base]

theorem bdIlst_total : Cat.bdIlst.fields.Total Cat.bdIlst.cfo (fun _ => True) true (some Cat.bdIlst.cfo) := by
  simp [Cat.bdIlst, Cat.fsIlst, Fields.ofList, Ty.Total, Fields.Total, Cfo.counted, Cfo.counted0, Cfo.base]

theorem bdData_total : Cat.bdData.fields.Total Cat.bdData.cfo (fun _ => True) true (some Cat.bdData.cfo) := by
  simp [Cat.bdData, Cat.fsData, Fields.ofList, Ty.Total, Fields.Total, Cfo.counted, Cfo.counted0, Cfo.base]

theorem bdIlstMetaContainer_total : Cat.bdIlstMetaContainer.fields.Total Cat.bdIlstMetaContainer.cfo (fun _ => True) true (some Cat.bdIlstMetaContainer.cfo) := by
  simp [Cat.bdIlstMetaContainer, Cat.fsIlstMetaContainer, Fields.ofList, Ty.Total, Fields.Total, Cfo.counted, Cfo.counted0, Cfo.base]

theorem bdStringData_total : Cat.bdStringData.fields.Total Cat.bdStringData.cfo (fun _ => True) true (some Cat.bdStringData.cfo) := by
  simp [Cat.bdStringData, Cat.fsStringData, Fields.ofList, Ty.Total, Fields.Total, Cfo.counted, Cfo.counted0, Cfo.base]

theorem bdKeys_total : Cat.bdKeys.fields.Total Cat.bdKeys.cfo (fun _ => True) true (some Cat.bdKeys.cfo) := by
  simp [Cat.bdKeys, Cat.fsKeys, Fields.ofList, Ty.Total, Fields.Total, fullBoxTy_total, tyKey_total, cfoKeys, Cfo.counted, Cfo.counted0, Cfo.base]

theorem bdDOps_total : Cat.bdDOps.fields.Total Cat.bdDOps.cfo (fun _ => True) true (some Cat.bdDOps.cfo) := by
  simp [Cat.bdDOps, Cat.fsDOps, Fields.ofList, Ty.Total, Fields.Total, cfoDOps, Cfo.counted, Cfo.counted0, Cfo.base]

theorem bdVpcC_total : Cat.bdVpcC.fields.Total Cat.bdVpcC.cfo (fun _ => True) true (some Cat.bdVpcC.cfo) := by
  simp [Cat.bdVpcC, Cat.fsVpcC, Fields.ofList, Ty.Total, Fields.Total, fullBoxTy_total, cfoVpcC, Cfo.counted, Cfo.counted0, Cfo.base]

theorem bdItem_total : Cat.bdItem.fields.Total Cat.bdItem.cfo (fun _ => True) true (some Cat.bdItem.cfo) := by
  simp [Cat.bdItem, Cat.fsItem, Fields.ofList, Ty.Total, Fields.Total, tyData_total, Cfo.counted, Cfo.counted0, Cfo.base]

theorem allDefs_total : ∀ bd ∈ Cat.allDefs,
    bd.fields.Total bd.cfo (fun sv => bd.goName = "Elst" ∨ bd.goName = "Tfra" → sv.version = 0 ∨ sv.version = 1) true
      (some bd.cfo) := by
  unfold Cat.allDefs
  simp only [List.forall_mem_cons]
  exact ⟨Fields.Total.mono (fun sv h => trivial) _ bdUdta3GppString_total,
    Fields.Total.mono (fun sv h => trivial) _ bdVisualSampleEntry_total,
    Fields.Total.mono (fun sv h => trivial) _ bdAv1C_total,
    Fields.Total.mono (fun sv h => trivial) _ bdAudioSampleEntry_total,
    Fields.Total.mono (fun sv h => trivial) _ bdDac3_total,
    Fields.Total.mono (fun sv h => trivial) _ bdBtrt_total,
    Fields.Total.mono (fun sv h => trivial) _ bdCo64_total,
    Fields.Total.mono (fun sv h => trivial) _ bdColr_total,
    Fields.Total.mono (fun sv h => trivial) _ bdCslg_total,
    Fields.Total.mono (fun sv h => trivial) _ bdCtts_total,
    Fields.Total.mono (fun sv h => trivial) _ bdDinf_total,
    Fields.Total.mono (fun sv h => trivial) _ bdDref_total,
    Fields.Total.mono (fun sv h => trivial) _ bdUrl_total,
    Fields.Total.mono (fun sv h => trivial) _ bdUrn_total,
    Fields.Total.mono (fun sv h => trivial) _ bdEdts_total,
    Fields.Total.mono (fun sv h => h (by decide)) _ bdElst_total,
    Fields.Total.mono (fun sv h => trivial) _ bdEmsg_total,
    Fields.Total.mono (fun sv h => trivial) _ bdFiel_total,
    Fields.Total.mono (fun sv h => trivial) _ bdFree_total,
    Fields.Total.mono (fun sv h => trivial) _ bdSkip_total,
    Fields.Total.mono (fun sv h => trivial) _ bdFrma_total,
    Fields.Total.mono (fun sv h => trivial) _ bdFtyp_total,
    Fields.Total.mono (fun sv h => trivial) _ bdHdlr_total,
    Fields.Total.mono (fun sv h => trivial) _ bdHvcC_total,
    Fields.Total.mono (fun sv h => trivial) _ bdMdat_total,
    Fields.Total.mono (fun sv h => trivial) _ bdMdhd_total,
    Fields.Total.mono (fun sv h => trivial) _ bdMdia_total,
    Fields.Total.mono (fun sv h => trivial) _ bdMehd_total,
    Fields.Total.mono (fun sv h => trivial) _ bdMeta_total,
    Fields.Total.mono (fun sv h => trivial) _ bdMfhd_total,
    Fields.Total.mono (fun sv h => trivial) _ bdMfra_total,
    Fields.Total.mono (fun sv h => trivial) _ bdMfro_total,
    Fields.Total.mono (fun sv h => trivial) _ bdMinf_total,
    Fields.Total.mono (fun sv h => trivial) _ bdMoof_total,
    Fields.Total.mono (fun sv h => trivial) _ bdMoov_total,
    Fields.Total.mono (fun sv h => trivial) _ bdMvex_total,
    Fields.Total.mono (fun sv h => trivial) _ bdMvhd_total,
    Fields.Total.mono (fun sv h => trivial) _ bdSaio_total,
    Fields.Total.mono (fun sv h => trivial) _ bdSaiz_total,
    Fields.Total.mono (fun sv h => trivial) _ bdAVCDecoderConfiguration_total,
    Fields.Total.mono (fun sv h => trivial) _ bdPixelAspectRatioBox_total,
    Fields.Total.mono (fun sv h => trivial) _ bdXMLSubtitleSampleEntry_total,
    Fields.Total.mono (fun sv h => trivial) _ bdTextSubtitleSampleEntry_total,
    Fields.Total.mono (fun sv h => trivial) _ bdSbgp_total,
    Fields.Total.mono (fun sv h => trivial) _ bdSchi_total,
    Fields.Total.mono (fun sv h => trivial) _ bdSchm_total,
    Fields.Total.mono (fun sv h => trivial) _ bdSdtp_total,
    Fields.Total.mono (fun sv h => trivial) _ bdSgpd_total,
    Fields.Total.mono (fun sv h => trivial) _ bdSidx_total,
    Fields.Total.mono (fun sv h => trivial) _ bdSinf_total,
    Fields.Total.mono (fun sv h => trivial) _ bdSmhd_total,
    Fields.Total.mono (fun sv h => trivial) _ bdStbl_total,
    Fields.Total.mono (fun sv h => trivial) _ bdStco_total,
    Fields.Total.mono (fun sv h => trivial) _ bdStsc_total,
    Fields.Total.mono (fun sv h => trivial) _ bdStsd_total,
    Fields.Total.mono (fun sv h => trivial) _ bdStss_total,
    Fields.Total.mono (fun sv h => trivial) _ bdStsz_total,
    Fields.Total.mono (fun sv h => trivial) _ bdStts_total,
    Fields.Total.mono (fun sv h => trivial) _ bdStyp_total,
    Fields.Total.mono (fun sv h => trivial) _ bdTfdt_total,
    Fields.Total.mono (fun sv h => trivial) _ bdTfhd_total,
    Fields.Total.mono (fun sv h => h (by decide)) _ bdTfra_total,
    Fields.Total.mono (fun sv h => trivial) _ bdTkhd_total,
    Fields.Total.mono (fun sv h => trivial) _ bdTraf_total,
    Fields.Total.mono (fun sv h => trivial) _ bdTrak_total,
    Fields.Total.mono (fun sv h => trivial) _ bdTrep_total,
    Fields.Total.mono (fun sv h => trivial) _ bdTrex_total,
    Fields.Total.mono (fun sv h => trivial) _ bdTrun_total,
    Fields.Total.mono (fun sv h => trivial) _ bdUdta_total,
    Fields.Total.mono (fun sv h => trivial) _ bdVmhd_total,
    Fields.Total.mono (fun sv h => trivial) _ bdWave_total,
    Fields.Total.mono (fun sv h => trivial) _ bdEsds_total,
    Fields.Total.mono (fun sv h => trivial) _ bdWebVTTConfigurationBox_total,
    Fields.Total.mono (fun sv h => trivial) _ bdWebVTTSourceLabelBox_total,
    Fields.Total.mono (fun sv h => trivial) _ bdWVTTSampleEntry_total,
    Fields.Total.mono (fun sv h => trivial) _ bdVTTCueBox_total,
    Fields.Total.mono (fun sv h => trivial) _ bdCueSourceIDBox_total,
    Fields.Total.mono (fun sv h => trivial) _ bdCueTimeBox_total,
    Fields.Total.mono (fun sv h => trivial) _ bdCueIDBox_total,
    Fields.Total.mono (fun sv h => trivial) _ bdCueSettingsBox_total,
    Fields.Total.mono (fun sv h => trivial) _ bdCuePayloadBox_total,
    Fields.Total.mono (fun sv h => trivial) _ bdVTTEmptyCueBox_total,
    Fields.Total.mono (fun sv h => trivial) _ bdVTTAdditionalTextBox_total,
    Fields.Total.mono (fun sv h => trivial) _ bdPcmC_total,
    Fields.Total.mono (fun sv h => trivial) _ bdPssh_total,
    Fields.Total.mono (fun sv h => trivial) _ bdTenc_total,
    Fields.Total.mono (fun sv h => trivial) _ bdIlst_total,
    Fields.Total.mono (fun sv h => trivial) _ bdData_total,
    Fields.Total.mono (fun sv h => trivial) _ bdIlstMetaContainer_total,
    Fields.Total.mono (fun sv h => trivial) _ bdStringData_total,
    Fields.Total.mono (fun sv h => trivial) _ bdKeys_total,
    Fields.Total.mono (fun sv h => trivial) _ bdDOps_total,
    Fields.Total.mono (fun sv h => trivial) _ bdVpcC_total,
    Fields.Total.mono (fun sv h => trivial) _ bdItem_total, by simp⟩

end Mp4
