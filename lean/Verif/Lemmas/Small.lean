import Verif.Lemmas.SoundTop

/-!
# Lengths computed by the methods of the box types
-/

set_option linter.unusedSimpArgs false

namespace Mp4

theorem sane_uint {k : Nat} (h : k < 2 ^ 32) : Sane k := by
  left
  omega

theorem sane_uint' {sv : SV} {m : String} (h : sv.uint m < 2 ^ 32) : Sane (sv.uint m) := sane_uint h

theorem sane_int {i : Int} (h : -(2 ^ 31 : Int) ≤ i ∧ i < (2 ^ 31 : Int)) : Sane (uintOfInt i) := by
  unfold Sane uintOfInt
  omega

theorem sane_key {i : Int} (h : -(2 ^ 31 : Int) ≤ i ∧ i < (2 ^ 31 : Int)) : Sane (sub64 (uintOfInt i) 8) := by
  unfold Sane uintOfInt sub64
  simp only [U64]
  omega

theorem Cfo.base_small : Cfo.base.SmallLen := by
  intro n ctx sv l _ hl
  simp [Cfo.base] at hl

theorem Cfo.counted_small (f c : String) : (Cfo.counted f c).SmallLen := by
  intro n ctx sv l h hl
  simp only [Cfo.counted] at h hl
  split at hl
  · cases hl
    exact sane_uint (h _ (by simp [*])).1
  · cases hl

theorem Cfo.counted0_small (f c : String) : (Cfo.counted0 f c).SmallLen := by
  intro n ctx sv l h hl
  simp only [Cfo.counted0] at h hl
  split at hl
  · cases hl
    exact sane_uint (h _ (by simp [*])).1
  · cases hl
    exact Or.inl (by decide)

theorem cfoCo64_small : cfoCo64.SmallLen := Cfo.counted_small _ _

theorem cfoCtts_small : cfoCtts.SmallLen := Cfo.counted_small _ _

theorem cfoSbgp_small : cfoSbgp.SmallLen := Cfo.counted_small _ _

theorem cfoSidx_small : cfoSidx.SmallLen := Cfo.counted_small _ _

theorem cfoStco_small : cfoStco.SmallLen := Cfo.counted_small _ _

theorem cfoStsc_small : cfoStsc.SmallLen := Cfo.counted_small _ _

theorem cfoStss_small : cfoStss.SmallLen := Cfo.counted_small _ _

theorem cfoStts_small : cfoStts.SmallLen := Cfo.counted_small _ _

theorem cfoHEVCNalu_small : cfoHEVCNalu.SmallLen := Cfo.counted0_small _ _

theorem cfoHEVCNaluArray_small : cfoHEVCNaluArray.SmallLen := Cfo.counted0_small _ _

theorem cfoHvcC_small : cfoHvcC.SmallLen := Cfo.counted0_small _ _

theorem cfoAVCParameterSet_small : cfoAVCParameterSet.SmallLen := Cfo.counted0_small _ _

theorem cfoAlternativeStartupEntry_small : cfoAlternativeStartupEntry.SmallLen := Cfo.counted0_small _ _

theorem cfoVpcC_small : cfoVpcC.SmallLen := Cfo.counted0_small _ _

theorem cfoColr_small : cfoColr.SmallLen := by
  intro n ctx sv l h hl
  simp only [cfoColr] at h hl
  repeat' split at hl
  all_goals first
    | (cases hl; done)
    | (cases hl; with_reducible refine sane_uint' ?_; exact (h _ (by simp_all)).1)
    | (cases hl; with_reducible refine sane_int ?_; exact (h _ (by simp_all)).2)
    | (cases hl; with_reducible refine sane_key ?_; exact (h _ (by simp_all)).2)
    | (cases hl; exact Or.inl (by decide))

theorem cfoElst_small : cfoElst.SmallLen := by
  intro n ctx sv l h hl
  simp only [cfoElst] at h hl
  repeat' split at hl
  all_goals first
    | (cases hl; done)
    | (cases hl; with_reducible refine sane_uint' ?_; exact (h _ (by simp_all)).1)
    | (cases hl; with_reducible refine sane_int ?_; exact (h _ (by simp_all)).2)
    | (cases hl; with_reducible refine sane_key ?_; exact (h _ (by simp_all)).2)
    | (cases hl; exact Or.inl (by decide))

theorem cfoSaio_small : cfoSaio.SmallLen := by
  intro n ctx sv l h hl
  simp only [cfoSaio] at h hl
  repeat' split at hl
  all_goals first
    | (cases hl; done)
    | (cases hl; with_reducible refine sane_uint' ?_; exact (h _ (by simp_all)).1)
    | (cases hl; with_reducible refine sane_int ?_; exact (h _ (by simp_all)).2)
    | (cases hl; with_reducible refine sane_key ?_; exact (h _ (by simp_all)).2)
    | (cases hl; exact Or.inl (by decide))

theorem cfoSaiz_small : cfoSaiz.SmallLen := by
  intro n ctx sv l h hl
  simp only [cfoSaiz] at h hl
  repeat' split at hl
  all_goals first
    | (cases hl; done)
    | (cases hl; with_reducible refine sane_uint' ?_; exact (h _ (by simp_all)).1)
    | (cases hl; with_reducible refine sane_int ?_; exact (h _ (by simp_all)).2)
    | (cases hl; with_reducible refine sane_key ?_; exact (h _ (by simp_all)).2)
    | (cases hl; exact Or.inl (by decide))

theorem cfoAudioSampleEntry_small : cfoAudioSampleEntry.SmallLen := by
  intro n ctx sv l h hl
  simp only [cfoAudioSampleEntry] at h hl
  repeat' split at hl
  all_goals first
    | (cases hl; done)
    | (cases hl; with_reducible refine sane_uint' ?_; exact (h _ (by simp_all)).1)
    | (cases hl; with_reducible refine sane_int ?_; exact (h _ (by simp_all)).2)
    | (cases hl; with_reducible refine sane_key ?_; exact (h _ (by simp_all)).2)
    | (cases hl; exact Or.inl (by decide))

theorem cfoAVCDecoderConfiguration_small : cfoAVCDecoderConfiguration.SmallLen := by
  intro n ctx sv l h hl
  simp only [cfoAVCDecoderConfiguration] at h hl
  repeat' split at hl
  all_goals first
    | (cases hl; done)
    | (cases hl; with_reducible refine sane_uint' ?_; exact (h _ (by simp_all)).1)
    | (cases hl; with_reducible refine sane_int ?_; exact (h _ (by simp_all)).2)
    | (cases hl; with_reducible refine sane_key ?_; exact (h _ (by simp_all)).2)
    | (cases hl; exact Or.inl (by decide))

theorem cfoSgpd_small : cfoSgpd.SmallLen := by
  intro n ctx sv l h hl
  simp only [cfoSgpd] at h hl
  repeat' split at hl
  all_goals first
    | (cases hl; done)
    | (cases hl; with_reducible refine sane_uint' ?_; exact (h _ (by simp_all)).1)
    | (cases hl; with_reducible refine sane_int ?_; exact (h _ (by simp_all)).2)
    | (cases hl; with_reducible refine sane_key ?_; exact (h _ (by simp_all)).2)
    | (cases hl; exact Or.inl (by decide))

theorem cfoAlternativeStartupEntryL_small : cfoAlternativeStartupEntryL.SmallLen := by
  intro n ctx sv l h hl
  simp only [cfoAlternativeStartupEntryL] at h hl
  repeat' split at hl
  all_goals first
    | (cases hl; done)
    | (cases hl; with_reducible refine sane_uint' ?_; exact (h _ (by simp_all)).1)
    | (cases hl; with_reducible refine sane_int ?_; exact (h _ (by simp_all)).2)
    | (cases hl; with_reducible refine sane_key ?_; exact (h _ (by simp_all)).2)
    | (cases hl; exact Or.inl (by decide))

theorem cfoStsz_small : cfoStsz.SmallLen := by
  intro n ctx sv l h hl
  simp only [cfoStsz] at h hl
  repeat' split at hl
  all_goals first
    | (cases hl; done)
    | (cases hl; with_reducible refine sane_uint' ?_; exact (h _ (by simp_all)).1)
    | (cases hl; with_reducible refine sane_int ?_; exact (h _ (by simp_all)).2)
    | (cases hl; with_reducible refine sane_key ?_; exact (h _ (by simp_all)).2)
    | (cases hl; exact Or.inl (by decide))

theorem cfoTfra_small : cfoTfra.SmallLen := by
  intro n ctx sv l h hl
  simp only [cfoTfra] at h hl
  repeat' split at hl
  all_goals first
    | (cases hl; done)
    | (cases hl; with_reducible refine sane_uint' ?_; exact (h _ (by simp_all)).1)
    | (cases hl; with_reducible refine sane_int ?_; exact (h _ (by simp_all)).2)
    | (cases hl; with_reducible refine sane_key ?_; exact (h _ (by simp_all)).2)
    | (cases hl; exact Or.inl (by decide))

theorem cfoTrun_small : cfoTrun.SmallLen := by
  intro n ctx sv l h hl
  simp only [cfoTrun] at h hl
  repeat' split at hl
  all_goals first
    | (cases hl; done)
    | (cases hl; with_reducible refine sane_uint' ?_; exact (h _ (by simp_all)).1)
    | (cases hl; with_reducible refine sane_int ?_; exact (h _ (by simp_all)).2)
    | (cases hl; with_reducible refine sane_key ?_; exact (h _ (by simp_all)).2)
    | (cases hl; exact Or.inl (by decide))

theorem cfoDescriptor_small : cfoDescriptor.SmallLen := by
  intro n ctx sv l h hl
  simp only [cfoDescriptor] at h hl
  repeat' split at hl
  all_goals first
    | (cases hl; done)
    | (cases hl; with_reducible refine sane_uint' ?_; exact (h _ (by simp_all)).1)
    | (cases hl; with_reducible refine sane_int ?_; exact (h _ (by simp_all)).2)
    | (cases hl; with_reducible refine sane_key ?_; exact (h _ (by simp_all)).2)
    | (cases hl; exact Or.inl (by decide))

theorem cfoESDescriptor_small : cfoESDescriptor.SmallLen := by
  intro n ctx sv l h hl
  simp only [cfoESDescriptor] at h hl
  repeat' split at hl
  all_goals first
    | (cases hl; done)
    | (cases hl; with_reducible refine sane_uint' ?_; exact (h _ (by simp_all)).1)
    | (cases hl; with_reducible refine sane_int ?_; exact (h _ (by simp_all)).2)
    | (cases hl; with_reducible refine sane_key ?_; exact (h _ (by simp_all)).2)
    | (cases hl; exact Or.inl (by decide))

theorem cfoPssh_small : cfoPssh.SmallLen := by
  intro n ctx sv l h hl
  simp only [cfoPssh] at h hl
  repeat' split at hl
  all_goals first
    | (cases hl; done)
    | (cases hl; with_reducible refine sane_uint' ?_; exact (h _ (by simp_all)).1)
    | (cases hl; with_reducible refine sane_int ?_; exact (h _ (by simp_all)).2)
    | (cases hl; with_reducible refine sane_key ?_; exact (h _ (by simp_all)).2)
    | (cases hl; exact Or.inl (by decide))

theorem cfoTenc_small : cfoTenc.SmallLen := by
  intro n ctx sv l h hl
  simp only [cfoTenc] at h hl
  repeat' split at hl
  all_goals first
    | (cases hl; done)
    | (cases hl; with_reducible refine sane_uint' ?_; exact (h _ (by simp_all)).1)
    | (cases hl; with_reducible refine sane_int ?_; exact (h _ (by simp_all)).2)
    | (cases hl; with_reducible refine sane_key ?_; exact (h _ (by simp_all)).2)
    | (cases hl; exact Or.inl (by decide))

theorem cfoKeys_small : cfoKeys.SmallLen := by
  intro n ctx sv l h hl
  simp only [cfoKeys] at h hl
  repeat' split at hl
  all_goals first
    | (cases hl; done)
    | (cases hl; with_reducible refine sane_uint' ?_; exact (h _ (by simp_all)).1)
    | (cases hl; with_reducible refine sane_int ?_; exact (h _ (by simp_all)).2)
    | (cases hl; with_reducible refine sane_key ?_; exact (h _ (by simp_all)).2)
    | (cases hl; exact Or.inl (by decide))

theorem cfoKey_small : cfoKey.SmallLen := by
  intro n ctx sv l h hl
  simp only [cfoKey] at h hl
  split at hl
  · next hn =>
    rw [if_pos hn] at h
    injection hl with hl
    rw [← hl]
    exact sane_key (h _ (by simp)).2
  · cases hl

theorem cfoDOps_small : cfoDOps.SmallLen := by
  intro n ctx sv l h hl
  simp only [cfoDOps] at h hl
  repeat' split at hl
  all_goals first
    | (cases hl; done)
    | (cases hl; with_reducible refine sane_uint' ?_; exact (h _ (by simp_all)).1)
    | (cases hl; with_reducible refine sane_int ?_; exact (h _ (by simp_all)).2)
    | (cases hl; with_reducible refine sane_key ?_; exact (h _ (by simp_all)).2)
    | (cases hl; exact Or.inl (by decide))

theorem fullBoxTy_small : fullBoxTy.AllSmall := by
  simp [fullBoxTy, Ty.AllSmall, Fields.AllSmall, Cfo.base_small]

theorem tySampleEntry_small : Cat.tySampleEntry.AllSmall := by
  simp [Cat.tySampleEntry, Cat.fsSampleEntry, Fields.ofList, Ty.AllSmall, Fields.AllSmall, Cfo.base_small]

theorem tyCttsEntry_small : Cat.tyCttsEntry.AllSmall := by
  simp [Cat.tyCttsEntry, Cat.fsCttsEntry, Fields.ofList, Ty.AllSmall, Fields.AllSmall]

theorem tyElstEntry_small : Cat.tyElstEntry.AllSmall := by
  simp [Cat.tyElstEntry, Cat.fsElstEntry, Fields.ofList, Ty.AllSmall, Fields.AllSmall]

theorem tyCompatibleBrandElem_small : Cat.tyCompatibleBrandElem.AllSmall := by
  simp [Cat.tyCompatibleBrandElem, Cat.fsCompatibleBrandElem, Fields.ofList, Ty.AllSmall, Fields.AllSmall]

theorem tyHEVCNalu_small : Cat.tyHEVCNalu.AllSmall := by
  simp [Cat.tyHEVCNalu, Cat.fsHEVCNalu, Fields.ofList, Ty.AllSmall, Fields.AllSmall, cfoHEVCNalu_small]

theorem tyHEVCNaluArray_small : Cat.tyHEVCNaluArray.AllSmall := by
  simp [Cat.tyHEVCNaluArray, Cat.fsHEVCNaluArray, Fields.ofList, Ty.AllSmall, Fields.AllSmall, cfoHEVCNaluArray_small, tyHEVCNalu_small]

theorem tyAVCParameterSet_small : Cat.tyAVCParameterSet.AllSmall := by
  simp [Cat.tyAVCParameterSet, Cat.fsAVCParameterSet, Fields.ofList, Ty.AllSmall, Fields.AllSmall, cfoAVCParameterSet_small]

theorem tySbgpEntry_small : Cat.tySbgpEntry.AllSmall := by
  simp [Cat.tySbgpEntry, Cat.fsSbgpEntry, Fields.ofList, Ty.AllSmall, Fields.AllSmall]

theorem tySdtpSampleElem_small : Cat.tySdtpSampleElem.AllSmall := by
  simp [Cat.tySdtpSampleElem, Cat.fsSdtpSampleElem, Fields.ofList, Ty.AllSmall, Fields.AllSmall]

theorem tyRollDistanceWithLength_small : Cat.tyRollDistanceWithLength.AllSmall := by
  simp [Cat.tyRollDistanceWithLength, Cat.fsRollDistanceWithLength, Fields.ofList, Ty.AllSmall, Fields.AllSmall]

theorem tyAlternativeStartupEntryOpt_small : Cat.tyAlternativeStartupEntryOpt.AllSmall := by
  simp [Cat.tyAlternativeStartupEntryOpt, Cat.fsAlternativeStartupEntryOpt, Fields.ofList, Ty.AllSmall, Fields.AllSmall]

theorem tyAlternativeStartupEntry_small : Cat.tyAlternativeStartupEntry.AllSmall := by
  simp [Cat.tyAlternativeStartupEntry, Cat.fsAlternativeStartupEntry, Fields.ofList, Ty.AllSmall, Fields.AllSmall, cfoAlternativeStartupEntry_small, tyAlternativeStartupEntryOpt_small]

theorem tyAlternativeStartupEntryL_small : Cat.tyAlternativeStartupEntryL.AllSmall := by
  simp [Cat.tyAlternativeStartupEntryL, Cat.fsAlternativeStartupEntryL, Fields.ofList, Ty.AllSmall, Fields.AllSmall, cfoAlternativeStartupEntryL_small, tyAlternativeStartupEntry_small]

theorem tyVisualRandomAccessEntry_small : Cat.tyVisualRandomAccessEntry.AllSmall := by
  simp [Cat.tyVisualRandomAccessEntry, Cat.fsVisualRandomAccessEntry, Fields.ofList, Ty.AllSmall, Fields.AllSmall]

theorem tyVisualRandomAccessEntryL_small : Cat.tyVisualRandomAccessEntryL.AllSmall := by
  simp [Cat.tyVisualRandomAccessEntryL, Cat.fsVisualRandomAccessEntryL, Fields.ofList, Ty.AllSmall, Fields.AllSmall, tyVisualRandomAccessEntry_small]

theorem tyTemporalLevelEntry_small : Cat.tyTemporalLevelEntry.AllSmall := by
  simp [Cat.tyTemporalLevelEntry, Cat.fsTemporalLevelEntry, Fields.ofList, Ty.AllSmall, Fields.AllSmall]

theorem tyTemporalLevelEntryL_small : Cat.tyTemporalLevelEntryL.AllSmall := by
  simp [Cat.tyTemporalLevelEntryL, Cat.fsTemporalLevelEntryL, Fields.ofList, Ty.AllSmall, Fields.AllSmall, tyTemporalLevelEntry_small]

theorem tySidxReference_small : Cat.tySidxReference.AllSmall := by
  simp [Cat.tySidxReference, Cat.fsSidxReference, Fields.ofList, Ty.AllSmall, Fields.AllSmall]

theorem tyStscEntry_small : Cat.tyStscEntry.AllSmall := by
  simp [Cat.tyStscEntry, Cat.fsStscEntry, Fields.ofList, Ty.AllSmall, Fields.AllSmall]

theorem tySttsEntry_small : Cat.tySttsEntry.AllSmall := by
  simp [Cat.tySttsEntry, Cat.fsSttsEntry, Fields.ofList, Ty.AllSmall, Fields.AllSmall]

theorem tyTfraEntry_small : Cat.tyTfraEntry.AllSmall := by
  simp [Cat.tyTfraEntry, Cat.fsTfraEntry, Fields.ofList, Ty.AllSmall, Fields.AllSmall]

theorem tyTrunEntry_small : Cat.tyTrunEntry.AllSmall := by
  simp [Cat.tyTrunEntry, Cat.fsTrunEntry, Fields.ofList, Ty.AllSmall, Fields.AllSmall]

theorem tyESDescriptor_small : Cat.tyESDescriptor.AllSmall := by
  simp [Cat.tyESDescriptor, Cat.fsESDescriptor, Fields.ofList, Ty.AllSmall, Fields.AllSmall, cfoESDescriptor_small]

theorem tyDecoderConfigDescriptor_small : Cat.tyDecoderConfigDescriptor.AllSmall := by
  simp [Cat.tyDecoderConfigDescriptor, Cat.fsDecoderConfigDescriptor, Fields.ofList, Ty.AllSmall, Fields.AllSmall, Cfo.base_small]

theorem tyDescriptor_small : Cat.tyDescriptor.AllSmall := by
  simp [Cat.tyDescriptor, Cat.fsDescriptor, Fields.ofList, Ty.AllSmall, Fields.AllSmall, cfoDescriptor_small, tyDecoderConfigDescriptor_small, tyESDescriptor_small]

theorem tyPsshKID_small : Cat.tyPsshKID.AllSmall := by
  simp [Cat.tyPsshKID, Cat.fsPsshKID, Fields.ofList, Ty.AllSmall, Fields.AllSmall]

theorem tyData_small : Cat.tyData.AllSmall := by
  simp [Cat.tyData, Cat.fsData, Fields.ofList, Ty.AllSmall, Fields.AllSmall, Cfo.base_small]

theorem tyKey_small : Cat.tyKey.AllSmall := by
  simp [Cat.tyKey, Cat.fsKey, Fields.ofList, Ty.AllSmall, Fields.AllSmall, cfoKey_small]

theorem bdUdta3GppString_small : Cat.bdUdta3GppString.cfo.SmallLen ∧ Cat.bdUdta3GppString.fields.AllSmall :=
  ⟨Cfo.base_small, by simp [Cat.bdUdta3GppString, Cat.fsUdta3GppString, Fields.ofList, Ty.AllSmall, Fields.AllSmall, fullBoxTy_small]⟩

theorem bdVisualSampleEntry_small : Cat.bdVisualSampleEntry.cfo.SmallLen ∧ Cat.bdVisualSampleEntry.fields.AllSmall :=
  ⟨Cfo.base_small, by simp [Cat.bdVisualSampleEntry, Cat.fsVisualSampleEntry, Fields.ofList, Ty.AllSmall, Fields.AllSmall, tySampleEntry_small]⟩

theorem bdAv1C_small : Cat.bdAv1C.cfo.SmallLen ∧ Cat.bdAv1C.fields.AllSmall :=
  ⟨Cfo.base_small, by simp [Cat.bdAv1C, Cat.fsAv1C, Fields.ofList, Ty.AllSmall, Fields.AllSmall]⟩

theorem bdAudioSampleEntry_small : Cat.bdAudioSampleEntry.cfo.SmallLen ∧ Cat.bdAudioSampleEntry.fields.AllSmall :=
  ⟨cfoAudioSampleEntry_small, by simp [Cat.bdAudioSampleEntry, Cat.fsAudioSampleEntry, Fields.ofList, Ty.AllSmall, Fields.AllSmall, tySampleEntry_small]⟩

theorem bdDac3_small : Cat.bdDac3.cfo.SmallLen ∧ Cat.bdDac3.fields.AllSmall :=
  ⟨Cfo.base_small, by simp [Cat.bdDac3, Cat.fsDac3, Fields.ofList, Ty.AllSmall, Fields.AllSmall]⟩

theorem bdBtrt_small : Cat.bdBtrt.cfo.SmallLen ∧ Cat.bdBtrt.fields.AllSmall :=
  ⟨Cfo.base_small, by simp [Cat.bdBtrt, Cat.fsBtrt, Fields.ofList, Ty.AllSmall, Fields.AllSmall]⟩

theorem bdCo64_small : Cat.bdCo64.cfo.SmallLen ∧ Cat.bdCo64.fields.AllSmall :=
  ⟨cfoCo64_small, by simp [Cat.bdCo64, Cat.fsCo64, Fields.ofList, Ty.AllSmall, Fields.AllSmall, fullBoxTy_small]⟩

theorem bdColr_small : Cat.bdColr.cfo.SmallLen ∧ Cat.bdColr.fields.AllSmall :=
  ⟨cfoColr_small, by simp [Cat.bdColr, Cat.fsColr, Fields.ofList, Ty.AllSmall, Fields.AllSmall]⟩

theorem bdCslg_small : Cat.bdCslg.cfo.SmallLen ∧ Cat.bdCslg.fields.AllSmall :=
  ⟨Cfo.base_small, by simp [Cat.bdCslg, Cat.fsCslg, Fields.ofList, Ty.AllSmall, Fields.AllSmall, fullBoxTy_small]⟩

theorem bdCtts_small : Cat.bdCtts.cfo.SmallLen ∧ Cat.bdCtts.fields.AllSmall :=
  ⟨cfoCtts_small, by simp [Cat.bdCtts, Cat.fsCtts, Fields.ofList, Ty.AllSmall, Fields.AllSmall, fullBoxTy_small, tyCttsEntry_small]⟩

theorem bdDinf_small : Cat.bdDinf.cfo.SmallLen ∧ Cat.bdDinf.fields.AllSmall :=
  ⟨Cfo.base_small, by simp [Cat.bdDinf, Cat.fsDinf, Fields.ofList, Ty.AllSmall, Fields.AllSmall]⟩

theorem bdDref_small : Cat.bdDref.cfo.SmallLen ∧ Cat.bdDref.fields.AllSmall :=
  ⟨Cfo.base_small, by simp [Cat.bdDref, Cat.fsDref, Fields.ofList, Ty.AllSmall, Fields.AllSmall, fullBoxTy_small]⟩

theorem bdUrl_small : Cat.bdUrl.cfo.SmallLen ∧ Cat.bdUrl.fields.AllSmall :=
  ⟨Cfo.base_small, by simp [Cat.bdUrl, Cat.fsUrl, Fields.ofList, Ty.AllSmall, Fields.AllSmall, fullBoxTy_small]⟩

theorem bdUrn_small : Cat.bdUrn.cfo.SmallLen ∧ Cat.bdUrn.fields.AllSmall :=
  ⟨Cfo.base_small, by simp [Cat.bdUrn, Cat.fsUrn, Fields.ofList, Ty.AllSmall, Fields.AllSmall, fullBoxTy_small]⟩

theorem bdEdts_small : Cat.bdEdts.cfo.SmallLen ∧ Cat.bdEdts.fields.AllSmall :=
  ⟨Cfo.base_small, by simp [Cat.bdEdts, Cat.fsEdts, Fields.ofList, Ty.AllSmall, Fields.AllSmall]⟩

theorem bdElst_small : Cat.bdElst.cfo.SmallLen ∧ Cat.bdElst.fields.AllSmall :=
  ⟨cfoElst_small, by simp [Cat.bdElst, Cat.fsElst, Fields.ofList, Ty.AllSmall, Fields.AllSmall, fullBoxTy_small, tyElstEntry_small]⟩

theorem bdEmsg_small : Cat.bdEmsg.cfo.SmallLen ∧ Cat.bdEmsg.fields.AllSmall :=
  ⟨Cfo.base_small, by simp [Cat.bdEmsg, Cat.fsEmsg, Fields.ofList, Ty.AllSmall, Fields.AllSmall, fullBoxTy_small]⟩

theorem bdFiel_small : Cat.bdFiel.cfo.SmallLen ∧ Cat.bdFiel.fields.AllSmall :=
  ⟨Cfo.base_small, by simp [Cat.bdFiel, Cat.fsFiel, Fields.ofList, Ty.AllSmall, Fields.AllSmall]⟩

theorem bdFree_small : Cat.bdFree.cfo.SmallLen ∧ Cat.bdFree.fields.AllSmall :=
  ⟨Cfo.base_small, by simp [Cat.bdFree, Cat.fsFreeSpace, Fields.ofList, Ty.AllSmall, Fields.AllSmall]⟩

theorem bdSkip_small : Cat.bdSkip.cfo.SmallLen ∧ Cat.bdSkip.fields.AllSmall :=
  ⟨Cfo.base_small, by simp [Cat.bdSkip, Cat.fsFreeSpace, Fields.ofList, Ty.AllSmall, Fields.AllSmall]⟩

theorem bdFrma_small : Cat.bdFrma.cfo.SmallLen ∧ Cat.bdFrma.fields.AllSmall :=
  ⟨Cfo.base_small, by simp [Cat.bdFrma, Cat.fsFrma, Fields.ofList, Ty.AllSmall, Fields.AllSmall]⟩

theorem bdFtyp_small : Cat.bdFtyp.cfo.SmallLen ∧ Cat.bdFtyp.fields.AllSmall :=
  ⟨Cfo.base_small, by simp [Cat.bdFtyp, Cat.fsFtyp, Fields.ofList, Ty.AllSmall, Fields.AllSmall, tyCompatibleBrandElem_small]⟩

theorem bdHdlr_small : Cat.bdHdlr.cfo.SmallLen ∧ Cat.bdHdlr.fields.AllSmall :=
  ⟨Cfo.base_small, by simp [Cat.bdHdlr, Cat.fsHdlr, Fields.ofList, Ty.AllSmall, Fields.AllSmall, fullBoxTy_small]⟩

theorem bdHvcC_small : Cat.bdHvcC.cfo.SmallLen ∧ Cat.bdHvcC.fields.AllSmall :=
  ⟨cfoHvcC_small, by simp [Cat.bdHvcC, Cat.fsHvcC, Fields.ofList, Ty.AllSmall, Fields.AllSmall, tyHEVCNaluArray_small]⟩

theorem bdMdat_small : Cat.bdMdat.cfo.SmallLen ∧ Cat.bdMdat.fields.AllSmall :=
  ⟨Cfo.base_small, by simp [Cat.bdMdat, Cat.fsMdat, Fields.ofList, Ty.AllSmall, Fields.AllSmall]⟩

theorem bdMdhd_small : Cat.bdMdhd.cfo.SmallLen ∧ Cat.bdMdhd.fields.AllSmall :=
  ⟨Cfo.base_small, by simp [Cat.bdMdhd, Cat.fsMdhd, Fields.ofList, Ty.AllSmall, Fields.AllSmall, fullBoxTy_small]⟩

theorem bdMdia_small : Cat.bdMdia.cfo.SmallLen ∧ Cat.bdMdia.fields.AllSmall :=
  ⟨Cfo.base_small, by simp [Cat.bdMdia, Cat.fsMdia, Fields.ofList, Ty.AllSmall, Fields.AllSmall]⟩

theorem bdMehd_small : Cat.bdMehd.cfo.SmallLen ∧ Cat.bdMehd.fields.AllSmall :=
  ⟨Cfo.base_small, by simp [Cat.bdMehd, Cat.fsMehd, Fields.ofList, Ty.AllSmall, Fields.AllSmall, fullBoxTy_small]⟩

theorem bdMeta_small : Cat.bdMeta.cfo.SmallLen ∧ Cat.bdMeta.fields.AllSmall :=
  ⟨Cfo.base_small, by simp [Cat.bdMeta, Cat.fsMeta, Fields.ofList, Ty.AllSmall, Fields.AllSmall, fullBoxTy_small]⟩

theorem bdMfhd_small : Cat.bdMfhd.cfo.SmallLen ∧ Cat.bdMfhd.fields.AllSmall :=
  ⟨Cfo.base_small, by simp [Cat.bdMfhd, Cat.fsMfhd, Fields.ofList, Ty.AllSmall, Fields.AllSmall, fullBoxTy_small]⟩

theorem bdMfra_small : Cat.bdMfra.cfo.SmallLen ∧ Cat.bdMfra.fields.AllSmall :=
  ⟨Cfo.base_small, by simp [Cat.bdMfra, Cat.fsMfra, Fields.ofList, Ty.AllSmall, Fields.AllSmall]⟩

theorem bdMfro_small : Cat.bdMfro.cfo.SmallLen ∧ Cat.bdMfro.fields.AllSmall :=
  ⟨Cfo.base_small, by simp [Cat.bdMfro, Cat.fsMfro, Fields.ofList, Ty.AllSmall, Fields.AllSmall, fullBoxTy_small]⟩

theorem bdMinf_small : Cat.bdMinf.cfo.SmallLen ∧ Cat.bdMinf.fields.AllSmall :=
  ⟨Cfo.base_small, by simp [Cat.bdMinf, Cat.fsMinf, Fields.ofList, Ty.AllSmall, Fields.AllSmall]⟩

theorem bdMoof_small : Cat.bdMoof.cfo.SmallLen ∧ Cat.bdMoof.fields.AllSmall :=
  ⟨Cfo.base_small, by simp [Cat.bdMoof, Cat.fsMoof, Fields.ofList, Ty.AllSmall, Fields.AllSmall]⟩

theorem bdMoov_small : Cat.bdMoov.cfo.SmallLen ∧ Cat.bdMoov.fields.AllSmall :=
  ⟨Cfo.base_small, by simp [Cat.bdMoov, Cat.fsMoov, Fields.ofList, Ty.AllSmall, Fields.AllSmall]⟩

theorem bdMvex_small : Cat.bdMvex.cfo.SmallLen ∧ Cat.bdMvex.fields.AllSmall :=
  ⟨Cfo.base_small, by simp [Cat.bdMvex, Cat.fsMvex, Fields.ofList, Ty.AllSmall, Fields.AllSmall]⟩

theorem bdMvhd_small : Cat.bdMvhd.cfo.SmallLen ∧ Cat.bdMvhd.fields.AllSmall :=
  ⟨Cfo.base_small, by simp [Cat.bdMvhd, Cat.fsMvhd, Fields.ofList, Ty.AllSmall, Fields.AllSmall, fullBoxTy_small]⟩

theorem bdSaio_small : Cat.bdSaio.cfo.SmallLen ∧ Cat.bdSaio.fields.AllSmall :=
  ⟨cfoSaio_small, by simp [Cat.bdSaio, Cat.fsSaio, Fields.ofList, Ty.AllSmall, Fields.AllSmall, fullBoxTy_small]⟩

theorem bdSaiz_small : Cat.bdSaiz.cfo.SmallLen ∧ Cat.bdSaiz.fields.AllSmall :=
  ⟨cfoSaiz_small, by simp [Cat.bdSaiz, Cat.fsSaiz, Fields.ofList, Ty.AllSmall, Fields.AllSmall, fullBoxTy_small]⟩

theorem bdAVCDecoderConfiguration_small : Cat.bdAVCDecoderConfiguration.cfo.SmallLen ∧ Cat.bdAVCDecoderConfiguration.fields.AllSmall :=
  ⟨cfoAVCDecoderConfiguration_small, by simp [Cat.bdAVCDecoderConfiguration, Cat.fsAVCDecoderConfiguration, Fields.ofList, Ty.AllSmall, Fields.AllSmall, tyAVCParameterSet_small]⟩

theorem bdPixelAspectRatioBox_small : Cat.bdPixelAspectRatioBox.cfo.SmallLen ∧ Cat.bdPixelAspectRatioBox.fields.AllSmall :=
  ⟨Cfo.base_small, by simp [Cat.bdPixelAspectRatioBox, Cat.fsPixelAspectRatioBox, Fields.ofList, Ty.AllSmall, Fields.AllSmall]⟩

theorem bdXMLSubtitleSampleEntry_small : Cat.bdXMLSubtitleSampleEntry.cfo.SmallLen ∧ Cat.bdXMLSubtitleSampleEntry.fields.AllSmall :=
  ⟨Cfo.base_small, by simp [Cat.bdXMLSubtitleSampleEntry, Cat.fsXMLSubtitleSampleEntry, Fields.ofList, Ty.AllSmall, Fields.AllSmall, tySampleEntry_small]⟩

theorem bdTextSubtitleSampleEntry_small : Cat.bdTextSubtitleSampleEntry.cfo.SmallLen ∧ Cat.bdTextSubtitleSampleEntry.fields.AllSmall :=
  ⟨Cfo.base_small, by simp [Cat.bdTextSubtitleSampleEntry, Cat.fsTextSubtitleSampleEntry, Fields.ofList, Ty.AllSmall, Fields.AllSmall, tySampleEntry_small]⟩

theorem bdSbgp_small : Cat.bdSbgp.cfo.SmallLen ∧ Cat.bdSbgp.fields.AllSmall :=
  ⟨cfoSbgp_small, by simp [Cat.bdSbgp, Cat.fsSbgp, Fields.ofList, Ty.AllSmall, Fields.AllSmall, fullBoxTy_small, tySbgpEntry_small]⟩

theorem bdSchi_small : Cat.bdSchi.cfo.SmallLen ∧ Cat.bdSchi.fields.AllSmall :=
  ⟨Cfo.base_small, by simp [Cat.bdSchi, Cat.fsSchi, Fields.ofList, Ty.AllSmall, Fields.AllSmall]⟩

theorem bdSchm_small : Cat.bdSchm.cfo.SmallLen ∧ Cat.bdSchm.fields.AllSmall :=
  ⟨Cfo.base_small, by simp [Cat.bdSchm, Cat.fsSchm, Fields.ofList, Ty.AllSmall, Fields.AllSmall, fullBoxTy_small]⟩

theorem bdSdtp_small : Cat.bdSdtp.cfo.SmallLen ∧ Cat.bdSdtp.fields.AllSmall :=
  ⟨Cfo.base_small, by simp [Cat.bdSdtp, Cat.fsSdtp, Fields.ofList, Ty.AllSmall, Fields.AllSmall, fullBoxTy_small, tySdtpSampleElem_small]⟩

theorem bdSgpd_small : Cat.bdSgpd.cfo.SmallLen ∧ Cat.bdSgpd.fields.AllSmall :=
  ⟨cfoSgpd_small, by simp [Cat.bdSgpd, Cat.fsSgpd, Fields.ofList, Ty.AllSmall, Fields.AllSmall, fullBoxTy_small, tyAlternativeStartupEntry_small, tyAlternativeStartupEntryL_small, tyRollDistanceWithLength_small, tyTemporalLevelEntry_small, tyTemporalLevelEntryL_small, tyVisualRandomAccessEntry_small, tyVisualRandomAccessEntryL_small]⟩

theorem bdSidx_small : Cat.bdSidx.cfo.SmallLen ∧ Cat.bdSidx.fields.AllSmall :=
  ⟨cfoSidx_small, by simp [Cat.bdSidx, Cat.fsSidx, Fields.ofList, Ty.AllSmall, Fields.AllSmall, fullBoxTy_small, tySidxReference_small]⟩

theorem bdSinf_small : Cat.bdSinf.cfo.SmallLen ∧ Cat.bdSinf.fields.AllSmall :=
  ⟨Cfo.base_small, by simp [Cat.bdSinf, Cat.fsSinf, Fields.ofList, Ty.AllSmall, Fields.AllSmall]⟩

theorem bdSmhd_small : Cat.bdSmhd.cfo.SmallLen ∧ Cat.bdSmhd.fields.AllSmall :=
  ⟨Cfo.base_small, by simp [Cat.bdSmhd, Cat.fsSmhd, Fields.ofList, Ty.AllSmall, Fields.AllSmall, fullBoxTy_small]⟩

theorem bdStbl_small : Cat.bdStbl.cfo.SmallLen ∧ Cat.bdStbl.fields.AllSmall :=
  ⟨Cfo.base_small, by simp [Cat.bdStbl, Cat.fsStbl, Fields.ofList, Ty.AllSmall, Fields.AllSmall]⟩

theorem bdStco_small : Cat.bdStco.cfo.SmallLen ∧ Cat.bdStco.fields.AllSmall :=
  ⟨cfoStco_small, by simp [Cat.bdStco, Cat.fsStco, Fields.ofList, Ty.AllSmall, Fields.AllSmall, fullBoxTy_small]⟩

theorem bdStsc_small : Cat.bdStsc.cfo.SmallLen ∧ Cat.bdStsc.fields.AllSmall :=
  ⟨cfoStsc_small, by simp [Cat.bdStsc, Cat.fsStsc, Fields.ofList, Ty.AllSmall, Fields.AllSmall, fullBoxTy_small, tyStscEntry_small]⟩

theorem bdStsd_small : Cat.bdStsd.cfo.SmallLen ∧ Cat.bdStsd.fields.AllSmall :=
  ⟨Cfo.base_small, by simp [Cat.bdStsd, Cat.fsStsd, Fields.ofList, Ty.AllSmall, Fields.AllSmall, fullBoxTy_small]⟩

theorem bdStss_small : Cat.bdStss.cfo.SmallLen ∧ Cat.bdStss.fields.AllSmall :=
  ⟨cfoStss_small, by simp [Cat.bdStss, Cat.fsStss, Fields.ofList, Ty.AllSmall, Fields.AllSmall, fullBoxTy_small]⟩

theorem bdStsz_small : Cat.bdStsz.cfo.SmallLen ∧ Cat.bdStsz.fields.AllSmall :=
  ⟨cfoStsz_small, by simp [Cat.bdStsz, Cat.fsStsz, Fields.ofList, Ty.AllSmall, Fields.AllSmall, fullBoxTy_small]⟩

theorem bdStts_small : Cat.bdStts.cfo.SmallLen ∧ Cat.bdStts.fields.AllSmall :=
  ⟨cfoStts_small, by simp [Cat.bdStts, Cat.fsStts, Fields.ofList, Ty.AllSmall, Fields.AllSmall, fullBoxTy_small, tySttsEntry_small]⟩

theorem bdStyp_small : Cat.bdStyp.cfo.SmallLen ∧ Cat.bdStyp.fields.AllSmall :=
  ⟨Cfo.base_small, by simp [Cat.bdStyp, Cat.fsStyp, Fields.ofList, Ty.AllSmall, Fields.AllSmall, tyCompatibleBrandElem_small]⟩

theorem bdTfdt_small : Cat.bdTfdt.cfo.SmallLen ∧ Cat.bdTfdt.fields.AllSmall :=
  ⟨Cfo.base_small, by simp [Cat.bdTfdt, Cat.fsTfdt, Fields.ofList, Ty.AllSmall, Fields.AllSmall, fullBoxTy_small]⟩

theorem bdTfhd_small : Cat.bdTfhd.cfo.SmallLen ∧ Cat.bdTfhd.fields.AllSmall :=
  ⟨Cfo.base_small, by simp [Cat.bdTfhd, Cat.fsTfhd, Fields.ofList, Ty.AllSmall, Fields.AllSmall, fullBoxTy_small]⟩

theorem bdTfra_small : Cat.bdTfra.cfo.SmallLen ∧ Cat.bdTfra.fields.AllSmall :=
  ⟨cfoTfra_small, by simp [Cat.bdTfra, Cat.fsTfra, Fields.ofList, Ty.AllSmall, Fields.AllSmall, fullBoxTy_small, tyTfraEntry_small]⟩

theorem bdTkhd_small : Cat.bdTkhd.cfo.SmallLen ∧ Cat.bdTkhd.fields.AllSmall :=
  ⟨Cfo.base_small, by simp [Cat.bdTkhd, Cat.fsTkhd, Fields.ofList, Ty.AllSmall, Fields.AllSmall, fullBoxTy_small]⟩

theorem bdTraf_small : Cat.bdTraf.cfo.SmallLen ∧ Cat.bdTraf.fields.AllSmall :=
  ⟨Cfo.base_small, by simp [Cat.bdTraf, Cat.fsTraf, Fields.ofList, Ty.AllSmall, Fields.AllSmall]⟩

theorem bdTrak_small : Cat.bdTrak.cfo.SmallLen ∧ Cat.bdTrak.fields.AllSmall :=
  ⟨Cfo.base_small, by simp [Cat.bdTrak, Cat.fsTrak, Fields.ofList, Ty.AllSmall, Fields.AllSmall]⟩

theorem bdTrep_small : Cat.bdTrep.cfo.SmallLen ∧ Cat.bdTrep.fields.AllSmall :=
  ⟨Cfo.base_small, by simp [Cat.bdTrep, Cat.fsTrep, Fields.ofList, Ty.AllSmall, Fields.AllSmall, fullBoxTy_small]⟩

theorem bdTrex_small : Cat.bdTrex.cfo.SmallLen ∧ Cat.bdTrex.fields.AllSmall :=
  ⟨Cfo.base_small, by simp [Cat.bdTrex, Cat.fsTrex, Fields.ofList, Ty.AllSmall, Fields.AllSmall, fullBoxTy_small]⟩

theorem bdTrun_small : Cat.bdTrun.cfo.SmallLen ∧ Cat.bdTrun.fields.AllSmall :=
  ⟨cfoTrun_small, by simp [Cat.bdTrun, Cat.fsTrun, Fields.ofList, Ty.AllSmall, Fields.AllSmall, fullBoxTy_small, tyTrunEntry_small]⟩

theorem bdUdta_small : Cat.bdUdta.cfo.SmallLen ∧ Cat.bdUdta.fields.AllSmall :=
  ⟨Cfo.base_small, by simp [Cat.bdUdta, Cat.fsUdta, Fields.ofList, Ty.AllSmall, Fields.AllSmall]⟩

theorem bdVmhd_small : Cat.bdVmhd.cfo.SmallLen ∧ Cat.bdVmhd.fields.AllSmall :=
  ⟨Cfo.base_small, by simp [Cat.bdVmhd, Cat.fsVmhd, Fields.ofList, Ty.AllSmall, Fields.AllSmall, fullBoxTy_small]⟩

theorem bdWave_small : Cat.bdWave.cfo.SmallLen ∧ Cat.bdWave.fields.AllSmall :=
  ⟨Cfo.base_small, by simp [Cat.bdWave, Cat.fsWave, Fields.ofList, Ty.AllSmall, Fields.AllSmall]⟩

theorem bdEsds_small : Cat.bdEsds.cfo.SmallLen ∧ Cat.bdEsds.fields.AllSmall :=
  ⟨Cfo.base_small, by simp [Cat.bdEsds, Cat.fsEsds, Fields.ofList, Ty.AllSmall, Fields.AllSmall, fullBoxTy_small, tyDescriptor_small]⟩

theorem bdWebVTTConfigurationBox_small : Cat.bdWebVTTConfigurationBox.cfo.SmallLen ∧ Cat.bdWebVTTConfigurationBox.fields.AllSmall :=
  ⟨Cfo.base_small, by simp [Cat.bdWebVTTConfigurationBox, Cat.fsWebVTTConfigurationBox, Fields.ofList, Ty.AllSmall, Fields.AllSmall]⟩

theorem bdWebVTTSourceLabelBox_small : Cat.bdWebVTTSourceLabelBox.cfo.SmallLen ∧ Cat.bdWebVTTSourceLabelBox.fields.AllSmall :=
  ⟨Cfo.base_small, by simp [Cat.bdWebVTTSourceLabelBox, Cat.fsWebVTTSourceLabelBox, Fields.ofList, Ty.AllSmall, Fields.AllSmall]⟩

theorem bdWVTTSampleEntry_small : Cat.bdWVTTSampleEntry.cfo.SmallLen ∧ Cat.bdWVTTSampleEntry.fields.AllSmall :=
  ⟨Cfo.base_small, by simp [Cat.bdWVTTSampleEntry, Cat.fsWVTTSampleEntry, Fields.ofList, Ty.AllSmall, Fields.AllSmall, tySampleEntry_small]⟩

theorem bdVTTCueBox_small : Cat.bdVTTCueBox.cfo.SmallLen ∧ Cat.bdVTTCueBox.fields.AllSmall :=
  ⟨Cfo.base_small, by simp [Cat.bdVTTCueBox, Cat.fsVTTCueBox, Fields.ofList, Ty.AllSmall, Fields.AllSmall]⟩

theorem bdCueSourceIDBox_small : Cat.bdCueSourceIDBox.cfo.SmallLen ∧ Cat.bdCueSourceIDBox.fields.AllSmall :=
  ⟨Cfo.base_small, by simp [Cat.bdCueSourceIDBox, Cat.fsCueSourceIDBox, Fields.ofList, Ty.AllSmall, Fields.AllSmall]⟩

theorem bdCueTimeBox_small : Cat.bdCueTimeBox.cfo.SmallLen ∧ Cat.bdCueTimeBox.fields.AllSmall :=
  ⟨Cfo.base_small, by simp [Cat.bdCueTimeBox, Cat.fsCueTimeBox, Fields.ofList, Ty.AllSmall, Fields.AllSmall]⟩

theorem bdCueIDBox_small : Cat.bdCueIDBox.cfo.SmallLen ∧ Cat.bdCueIDBox.fields.AllSmall :=
  ⟨Cfo.base_small, by simp [Cat.bdCueIDBox, Cat.fsCueIDBox, Fields.ofList, Ty.AllSmall, Fields.AllSmall]⟩

theorem bdCueSettingsBox_small : Cat.bdCueSettingsBox.cfo.SmallLen ∧ Cat.bdCueSettingsBox.fields.AllSmall :=
  ⟨Cfo.base_small, by simp [Cat.bdCueSettingsBox, Cat.fsCueSettingsBox, Fields.ofList, Ty.AllSmall, Fields.AllSmall]⟩

theorem bdCuePayloadBox_small : Cat.bdCuePayloadBox.cfo.SmallLen ∧ Cat.bdCuePayloadBox.fields.AllSmall :=
  ⟨Cfo.base_small, by simp [Cat.bdCuePayloadBox, Cat.fsCuePayloadBox, Fields.ofList, Ty.AllSmall, Fields.AllSmall]⟩

theorem bdVTTEmptyCueBox_small : Cat.bdVTTEmptyCueBox.cfo.SmallLen ∧ Cat.bdVTTEmptyCueBox.fields.AllSmall :=
  ⟨Cfo.base_small, by simp [Cat.bdVTTEmptyCueBox, Cat.fsVTTEmptyCueBox, Fields.ofList, Ty.AllSmall, Fields.AllSmall]⟩

theorem bdVTTAdditionalTextBox_small : Cat.bdVTTAdditionalTextBox.cfo.SmallLen ∧ Cat.bdVTTAdditionalTextBox.fields.AllSmall :=
  ⟨Cfo.base_small, by simp [Cat.bdVTTAdditionalTextBox, Cat.fsVTTAdditionalTextBox, Fields.ofList, Ty.AllSmall, Fields.AllSmall]⟩

theorem bdPcmC_small : Cat.bdPcmC.cfo.SmallLen ∧ Cat.bdPcmC.fields.AllSmall :=
  ⟨Cfo.base_small, by simp [Cat.bdPcmC, Cat.fsPcmC, Fields.ofList, Ty.AllSmall, Fields.AllSmall, fullBoxTy_small]⟩

theorem bdPssh_small : Cat.bdPssh.cfo.SmallLen ∧ Cat.bdPssh.fields.AllSmall :=
  ⟨cfoPssh_small, by simp [Cat.bdPssh, Cat.fsPssh, Fields.ofList, Ty.AllSmall, Fields.AllSmall, fullBoxTy_small, tyPsshKID_small]⟩

theorem bdTenc_small : Cat.bdTenc.cfo.SmallLen ∧ Cat.bdTenc.fields.AllSmall :=
  ⟨cfoTenc_small, by simp [Cat.bdTenc, Cat.fsTenc, Fields.ofList, Ty.AllSmall, Fields.AllSmall, fullBoxTy_small]⟩

theorem bdIlst_small : Cat.bdIlst.cfo.SmallLen ∧ Cat.bdIlst.fields.AllSmall :=
  ⟨Cfo.base_small, by simp [Cat.bdIlst, Cat.fsIlst, Fields.ofList, Ty.AllSmall, Fields.AllSmall]⟩

theorem bdData_small : Cat.bdData.cfo.SmallLen ∧ Cat.bdData.fields.AllSmall :=
  ⟨Cfo.base_small, by simp [Cat.bdData, Cat.fsData, Fields.ofList, Ty.AllSmall, Fields.AllSmall]⟩

theorem bdIlstMetaContainer_small : Cat.bdIlstMetaContainer.cfo.SmallLen ∧ Cat.bdIlstMetaContainer.fields.AllSmall :=
  ⟨Cfo.base_small, by simp [Cat.bdIlstMetaContainer, Cat.fsIlstMetaContainer, Fields.ofList, Ty.AllSmall, Fields.AllSmall]⟩

theorem bdStringData_small : Cat.bdStringData.cfo.SmallLen ∧ Cat.bdStringData.fields.AllSmall :=
  ⟨Cfo.base_small, by simp [Cat.bdStringData, Cat.fsStringData, Fields.ofList, Ty.AllSmall, Fields.AllSmall]⟩

theorem bdKeys_small : Cat.bdKeys.cfo.SmallLen ∧ Cat.bdKeys.fields.AllSmall :=
  ⟨cfoKeys_small, by simp [Cat.bdKeys, Cat.fsKeys, Fields.ofList, Ty.AllSmall, Fields.AllSmall, fullBoxTy_small, tyKey_small]⟩

theorem bdDOps_small : Cat.bdDOps.cfo.SmallLen ∧ Cat.bdDOps.fields.AllSmall :=
  ⟨cfoDOps_small, by simp [Cat.bdDOps, Cat.fsDOps, Fields.ofList, Ty.AllSmall, Fields.AllSmall]⟩

theorem bdVpcC_small : Cat.bdVpcC.cfo.SmallLen ∧ Cat.bdVpcC.fields.AllSmall :=
  ⟨cfoVpcC_small, by simp [Cat.bdVpcC, Cat.fsVpcC, Fields.ofList, Ty.AllSmall, Fields.AllSmall, fullBoxTy_small]⟩

theorem bdItem_small : Cat.bdItem.cfo.SmallLen ∧ Cat.bdItem.fields.AllSmall :=
  ⟨Cfo.base_small, by simp [Cat.bdItem, Cat.fsItem, Fields.ofList, Ty.AllSmall, Fields.AllSmall, tyData_small]⟩

/-- The lengths given by the methods of every box type are sane. -/
theorem allDefs_small : ∀ bd ∈ Cat.allDefs, bd.cfo.SmallLen ∧ bd.fields.AllSmall := by
  simp only [Cat.allDefs, List.forall_mem_cons]
  exact ⟨bdUdta3GppString_small, bdVisualSampleEntry_small, bdAv1C_small, bdAudioSampleEntry_small, bdDac3_small, bdBtrt_small, bdCo64_small, bdColr_small, bdCslg_small, bdCtts_small, bdDinf_small, bdDref_small, bdUrl_small, bdUrn_small, bdEdts_small, bdElst_small, bdEmsg_small, bdFiel_small, bdFree_small, bdSkip_small, bdFrma_small, bdFtyp_small, bdHdlr_small, bdHvcC_small, bdMdat_small, bdMdhd_small, bdMdia_small, bdMehd_small, bdMeta_small, bdMfhd_small, bdMfra_small, bdMfro_small, bdMinf_small, bdMoof_small, bdMoov_small, bdMvex_small, bdMvhd_small, bdSaio_small, bdSaiz_small, bdAVCDecoderConfiguration_small, bdPixelAspectRatioBox_small, bdXMLSubtitleSampleEntry_small, bdTextSubtitleSampleEntry_small, bdSbgp_small, bdSchi_small, bdSchm_small, bdSdtp_small, bdSgpd_small, bdSidx_small, bdSinf_small, bdSmhd_small, bdStbl_small, bdStco_small, bdStsc_small, bdStsd_small, bdStss_small, bdStsz_small, bdStts_small, bdStyp_small, bdTfdt_small, bdTfhd_small, bdTfra_small, bdTkhd_small, bdTraf_small, bdTrak_small, bdTrep_small, bdTrex_small, bdTrun_small, bdUdta_small, bdVmhd_small, bdWave_small, bdEsds_small, bdWebVTTConfigurationBox_small, bdWebVTTSourceLabelBox_small, bdWVTTSampleEntry_small, bdVTTCueBox_small, bdCueSourceIDBox_small, bdCueTimeBox_small, bdCueIDBox_small, bdCueSettingsBox_small, bdCuePayloadBox_small, bdVTTEmptyCueBox_small, bdVTTAdditionalTextBox_small, bdPcmC_small, bdPssh_small, bdTenc_small, bdIlst_small, bdData_small, bdIlstMetaContainer_small, bdStringData_small, bdKeys_small, bdDOps_small, bdVpcC_small, bdItem_small, by simp⟩

end Mp4
