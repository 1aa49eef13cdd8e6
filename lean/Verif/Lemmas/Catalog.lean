import Verif.Model.Catalog
import Verif.Lemmas.Decode

/-!
# Facts about the catalogue of box types

The methods of all box types look only at fields that precede the field they are asked about.
-/

set_option linter.unusedSimpArgs false

namespace Mp4
theorem SV.int_congr {a b : SV} {n : String} (h : a.get n = b.get n) : a.int n = b.int n := by
  simp only [SV.int, h]
theorem SV.bool_congr {a b : SV} {n : String} (h : a.get n = b.get n) : a.bool n = b.bool n := by
  simp only [SV.bool, h]
theorem SV.byteArr_congr {a b : SV} {n : String} (h : a.get n = b.get n) : a.byteArr n = b.byteArr n := by
  simp only [SV.byteArr, h]

theorem Cfo.base_local : Cfo.base.Local := by
  intro n ctx a b _
  exact ⟨rfl, rfl, rfl⟩

theorem Cfo.counted_local (f c : String) : (Cfo.counted f c).Local := by
  intro n ctx a b h
  simp only [Cfo.counted] at h ⊢
  by_cases hn : n = f
  · simp only [hn, if_true, List.mem_singleton, forall_eq] at h
    simp [SV.uint_congr h]
  · simp [hn]

theorem Cfo.counted0_local (f c : String) : (Cfo.counted0 f c).Local := by
  intro n ctx a b h
  simp only [Cfo.counted0] at h ⊢
  by_cases hn : n = f
  · simp only [hn, if_true, List.mem_singleton, forall_eq] at h
    simp [SV.uint_congr h]
  · simp [hn]

theorem cfoCo64_local : cfoCo64.Local := Cfo.counted_local _ _

theorem cfoCtts_local : cfoCtts.Local := Cfo.counted_local _ _

theorem cfoSbgp_local : cfoSbgp.Local := Cfo.counted_local _ _

theorem cfoSidx_local : cfoSidx.Local := Cfo.counted_local _ _

theorem cfoStco_local : cfoStco.Local := Cfo.counted_local _ _

theorem cfoStsc_local : cfoStsc.Local := Cfo.counted_local _ _

theorem cfoStss_local : cfoStss.Local := Cfo.counted_local _ _

theorem cfoStts_local : cfoStts.Local := Cfo.counted_local _ _

theorem cfoHEVCNalu_local : cfoHEVCNalu.Local := Cfo.counted0_local _ _

theorem cfoHEVCNaluArray_local : cfoHEVCNaluArray.Local := Cfo.counted0_local _ _

theorem cfoHvcC_local : cfoHvcC.Local := Cfo.counted0_local _ _

theorem cfoAVCParameterSet_local : cfoAVCParameterSet.Local := Cfo.counted0_local _ _

theorem cfoAlternativeStartupEntry_local : cfoAlternativeStartupEntry.Local := Cfo.counted0_local _ _

theorem cfoVpcC_local : cfoVpcC.Local := Cfo.counted0_local _ _

theorem cfoColr_local : cfoColr.Local := by
  intro n ctx a b h
  simp only [cfoColr] at h ⊢
  have h0 := h "ColourType" (by simp)
  simp only [SV.uint_congr h0, SV.int_congr h0, SV.byteArr_congr h0, and_self]

theorem cfoElst_local : cfoElst.Local := by
  intro n ctx a b h
  simp only [cfoElst] at h ⊢
  by_cases h_Entries : n = "Entries"
  · subst h_Entries
    have h0 := h "FullBox" (by decide)
    have h1 := h "EntryCount" (by decide)
    simp [SV.version_congr h0, SV.flags_congr h0, SV.uint_congr h1, SV.int_congr h1, SV.bool_congr h1, SV.byteArr_congr h1]
  simp [h_Entries, beq_eq_false_iff_ne.mpr h_Entries]

theorem cfoSaio_local : cfoSaio.Local := by
  intro n ctx a b h
  simp only [cfoSaio] at h ⊢
  by_cases h_OffsetV0 : n = "OffsetV0"
  · subst h_OffsetV0
    have h0 := h "EntryCount" (by decide)
    simp [SV.uint_congr h0, SV.int_congr h0, SV.bool_congr h0, SV.byteArr_congr h0]
  by_cases h_OffsetV1 : n = "OffsetV1"
  · subst h_OffsetV1
    have h0 := h "EntryCount" (by decide)
    simp [SV.uint_congr h0, SV.int_congr h0, SV.bool_congr h0, SV.byteArr_congr h0]
  simp [h_OffsetV0, h_OffsetV1, beq_eq_false_iff_ne.mpr h_OffsetV0, beq_eq_false_iff_ne.mpr h_OffsetV1]

theorem cfoSaiz_local : cfoSaiz.Local := by
  intro n ctx a b h
  simp only [cfoSaiz] at h ⊢
  by_cases h_SampleInfoSize : n = "SampleInfoSize"
  · subst h_SampleInfoSize
    have h0 := h "DefaultSampleInfoSize" (by decide)
    have h1 := h "SampleCount" (by decide)
    simp [SV.uint_congr h0, SV.int_congr h0, SV.bool_congr h0, SV.byteArr_congr h0, SV.uint_congr h1, SV.int_congr h1, SV.bool_congr h1, SV.byteArr_congr h1]
  simp [h_SampleInfoSize, beq_eq_false_iff_ne.mpr h_SampleInfoSize]

theorem cfoAudioSampleEntry_local : cfoAudioSampleEntry.Local := by
  intro n ctx a b h
  simp only [cfoAudioSampleEntry] at h ⊢
  by_cases h_QuickTimeData : n = "QuickTimeData"
  · subst h_QuickTimeData
    have h0 := h "EntryVersion" (by decide)
    simp [SV.uint_congr h0, SV.int_congr h0, SV.bool_congr h0, SV.byteArr_congr h0]
  simp [h_QuickTimeData, beq_eq_false_iff_ne.mpr h_QuickTimeData]

theorem cfoAVCDecoderConfiguration_local : cfoAVCDecoderConfiguration.Local := by
  intro n ctx a b h
  simp only [cfoAVCDecoderConfiguration] at h ⊢
  by_cases h_SequenceParameterSets : n = "SequenceParameterSets"
  · subst h_SequenceParameterSets
    have h0 := h "NumOfSequenceParameterSets" (by decide)
    simp [SV.uint_congr h0, SV.int_congr h0, SV.bool_congr h0, SV.byteArr_congr h0, avccOptNames]
  by_cases h_PictureParameterSets : n = "PictureParameterSets"
  · subst h_PictureParameterSets
    have h0 := h "NumOfPictureParameterSets" (by decide)
    simp [SV.uint_congr h0, SV.int_congr h0, SV.bool_congr h0, SV.byteArr_congr h0, avccOptNames]
  by_cases h_SequenceParameterSetsExt : n = "SequenceParameterSetsExt"
  · subst h_SequenceParameterSetsExt
    have h0 := h "NumOfSequenceParameterSetExt" (by decide)
    have h1 := h "HighProfileFieldsEnabled" (by decide)
    simp [SV.uint_congr h0, SV.int_congr h0, SV.bool_congr h0, SV.byteArr_congr h0, SV.uint_congr h1, SV.int_congr h1, SV.bool_congr h1, SV.byteArr_congr h1, avccOptNames]
  by_cases h_Reserved3 : n = "Reserved3"
  · subst h_Reserved3
    have h0 := h "HighProfileFieldsEnabled" (by decide)
    simp [SV.uint_congr h0, SV.int_congr h0, SV.bool_congr h0, SV.byteArr_congr h0, avccOptNames]
  by_cases h_ChromaFormat : n = "ChromaFormat"
  · subst h_ChromaFormat
    have h0 := h "HighProfileFieldsEnabled" (by decide)
    simp [SV.uint_congr h0, SV.int_congr h0, SV.bool_congr h0, SV.byteArr_congr h0, avccOptNames]
  by_cases h_Reserved4 : n = "Reserved4"
  · subst h_Reserved4
    have h0 := h "HighProfileFieldsEnabled" (by decide)
    simp [SV.uint_congr h0, SV.int_congr h0, SV.bool_congr h0, SV.byteArr_congr h0, avccOptNames]
  by_cases h_BitDepthLumaMinus8 : n = "BitDepthLumaMinus8"
  · subst h_BitDepthLumaMinus8
    have h0 := h "HighProfileFieldsEnabled" (by decide)
    simp [SV.uint_congr h0, SV.int_congr h0, SV.bool_congr h0, SV.byteArr_congr h0, avccOptNames]
  by_cases h_Reserved5 : n = "Reserved5"
  · subst h_Reserved5
    have h0 := h "HighProfileFieldsEnabled" (by decide)
    simp [SV.uint_congr h0, SV.int_congr h0, SV.bool_congr h0, SV.byteArr_congr h0, avccOptNames]
  by_cases h_BitDepthChromaMinus8 : n = "BitDepthChromaMinus8"
  · subst h_BitDepthChromaMinus8
    have h0 := h "HighProfileFieldsEnabled" (by decide)
    simp [SV.uint_congr h0, SV.int_congr h0, SV.bool_congr h0, SV.byteArr_congr h0, avccOptNames]
  by_cases h_NumOfSequenceParameterSetExt : n = "NumOfSequenceParameterSetExt"
  · subst h_NumOfSequenceParameterSetExt
    have h0 := h "HighProfileFieldsEnabled" (by decide)
    simp [SV.uint_congr h0, SV.int_congr h0, SV.bool_congr h0, SV.byteArr_congr h0, avccOptNames]
  simp [h_SequenceParameterSets, h_PictureParameterSets, h_SequenceParameterSetsExt, h_Reserved3, h_ChromaFormat, h_Reserved4, h_BitDepthLumaMinus8, h_Reserved5, h_BitDepthChromaMinus8, h_NumOfSequenceParameterSetExt, beq_eq_false_iff_ne.mpr h_SequenceParameterSets, beq_eq_false_iff_ne.mpr h_PictureParameterSets, beq_eq_false_iff_ne.mpr h_SequenceParameterSetsExt, beq_eq_false_iff_ne.mpr h_Reserved3, beq_eq_false_iff_ne.mpr h_ChromaFormat, beq_eq_false_iff_ne.mpr h_Reserved4, beq_eq_false_iff_ne.mpr h_BitDepthLumaMinus8, beq_eq_false_iff_ne.mpr h_Reserved5, beq_eq_false_iff_ne.mpr h_BitDepthChromaMinus8, beq_eq_false_iff_ne.mpr h_NumOfSequenceParameterSetExt, avccOptNames]

theorem cfoSgpd_local : cfoSgpd.Local := by
  intro n ctx a b h
  simp only [cfoSgpd] at h ⊢
  by_cases h_RollDistances : n = "RollDistances"
  · subst h_RollDistances
    have h0 := h "FullBox" (by decide)
    have h1 := h "GroupingType" (by decide)
    have h2 := h "DefaultLength" (by decide)
    have h3 := h "EntryCount" (by decide)
    simp [SV.version_congr h0, SV.flags_congr h0, SV.uint_congr h1, SV.int_congr h1, SV.bool_congr h1, SV.byteArr_congr h1, SV.uint_congr h2, SV.int_congr h2, SV.bool_congr h2, SV.byteArr_congr h2, SV.uint_congr h3, SV.int_congr h3, SV.bool_congr h3, SV.byteArr_congr h3, sgpdLists]
  by_cases h_RollDistancesL : n = "RollDistancesL"
  · subst h_RollDistancesL
    have h0 := h "FullBox" (by decide)
    have h1 := h "GroupingType" (by decide)
    have h2 := h "DefaultLength" (by decide)
    have h3 := h "EntryCount" (by decide)
    simp [SV.version_congr h0, SV.flags_congr h0, SV.uint_congr h1, SV.int_congr h1, SV.bool_congr h1, SV.byteArr_congr h1, SV.uint_congr h2, SV.int_congr h2, SV.bool_congr h2, SV.byteArr_congr h2, SV.uint_congr h3, SV.int_congr h3, SV.bool_congr h3, SV.byteArr_congr h3, sgpdLists]
  by_cases h_AlternativeStartupEntries : n = "AlternativeStartupEntries"
  · subst h_AlternativeStartupEntries
    have h0 := h "FullBox" (by decide)
    have h1 := h "GroupingType" (by decide)
    have h2 := h "DefaultLength" (by decide)
    have h3 := h "EntryCount" (by decide)
    simp [SV.version_congr h0, SV.flags_congr h0, SV.uint_congr h1, SV.int_congr h1, SV.bool_congr h1, SV.byteArr_congr h1, SV.uint_congr h2, SV.int_congr h2, SV.bool_congr h2, SV.byteArr_congr h2, SV.uint_congr h3, SV.int_congr h3, SV.bool_congr h3, SV.byteArr_congr h3, sgpdLists]
  by_cases h_AlternativeStartupEntriesL : n = "AlternativeStartupEntriesL"
  · subst h_AlternativeStartupEntriesL
    have h0 := h "FullBox" (by decide)
    have h1 := h "GroupingType" (by decide)
    have h2 := h "DefaultLength" (by decide)
    have h3 := h "EntryCount" (by decide)
    simp [SV.version_congr h0, SV.flags_congr h0, SV.uint_congr h1, SV.int_congr h1, SV.bool_congr h1, SV.byteArr_congr h1, SV.uint_congr h2, SV.int_congr h2, SV.bool_congr h2, SV.byteArr_congr h2, SV.uint_congr h3, SV.int_congr h3, SV.bool_congr h3, SV.byteArr_congr h3, sgpdLists]
  by_cases h_VisualRandomAccessEntries : n = "VisualRandomAccessEntries"
  · subst h_VisualRandomAccessEntries
    have h0 := h "FullBox" (by decide)
    have h1 := h "GroupingType" (by decide)
    have h2 := h "DefaultLength" (by decide)
    have h3 := h "EntryCount" (by decide)
    simp [SV.version_congr h0, SV.flags_congr h0, SV.uint_congr h1, SV.int_congr h1, SV.bool_congr h1, SV.byteArr_congr h1, SV.uint_congr h2, SV.int_congr h2, SV.bool_congr h2, SV.byteArr_congr h2, SV.uint_congr h3, SV.int_congr h3, SV.bool_congr h3, SV.byteArr_congr h3, sgpdLists]
  by_cases h_VisualRandomAccessEntriesL : n = "VisualRandomAccessEntriesL"
  · subst h_VisualRandomAccessEntriesL
    have h0 := h "FullBox" (by decide)
    have h1 := h "GroupingType" (by decide)
    have h2 := h "DefaultLength" (by decide)
    have h3 := h "EntryCount" (by decide)
    simp [SV.version_congr h0, SV.flags_congr h0, SV.uint_congr h1, SV.int_congr h1, SV.bool_congr h1, SV.byteArr_congr h1, SV.uint_congr h2, SV.int_congr h2, SV.bool_congr h2, SV.byteArr_congr h2, SV.uint_congr h3, SV.int_congr h3, SV.bool_congr h3, SV.byteArr_congr h3, sgpdLists]
  by_cases h_TemporalLevelEntries : n = "TemporalLevelEntries"
  · subst h_TemporalLevelEntries
    have h0 := h "FullBox" (by decide)
    have h1 := h "GroupingType" (by decide)
    have h2 := h "DefaultLength" (by decide)
    have h3 := h "EntryCount" (by decide)
    simp [SV.version_congr h0, SV.flags_congr h0, SV.uint_congr h1, SV.int_congr h1, SV.bool_congr h1, SV.byteArr_congr h1, SV.uint_congr h2, SV.int_congr h2, SV.bool_congr h2, SV.byteArr_congr h2, SV.uint_congr h3, SV.int_congr h3, SV.bool_congr h3, SV.byteArr_congr h3, sgpdLists]
  by_cases h_TemporalLevelEntriesL : n = "TemporalLevelEntriesL"
  · subst h_TemporalLevelEntriesL
    have h0 := h "FullBox" (by decide)
    have h1 := h "GroupingType" (by decide)
    have h2 := h "DefaultLength" (by decide)
    have h3 := h "EntryCount" (by decide)
    simp [SV.version_congr h0, SV.flags_congr h0, SV.uint_congr h1, SV.int_congr h1, SV.bool_congr h1, SV.byteArr_congr h1, SV.uint_congr h2, SV.int_congr h2, SV.bool_congr h2, SV.byteArr_congr h2, SV.uint_congr h3, SV.int_congr h3, SV.bool_congr h3, SV.byteArr_congr h3, sgpdLists]
  by_cases h_Unsupported : n = "Unsupported"
  · subst h_Unsupported
    have h0 := h "FullBox" (by decide)
    have h1 := h "GroupingType" (by decide)
    have h2 := h "DefaultLength" (by decide)
    have h3 := h "EntryCount" (by decide)
    simp [SV.version_congr h0, SV.flags_congr h0, SV.uint_congr h1, SV.int_congr h1, SV.bool_congr h1, SV.byteArr_congr h1, SV.uint_congr h2, SV.int_congr h2, SV.bool_congr h2, SV.byteArr_congr h2, SV.uint_congr h3, SV.int_congr h3, SV.bool_congr h3, SV.byteArr_congr h3, sgpdLists]
  simp [h_RollDistances, h_RollDistancesL, h_AlternativeStartupEntries, h_AlternativeStartupEntriesL, h_VisualRandomAccessEntries, h_VisualRandomAccessEntriesL, h_TemporalLevelEntries, h_TemporalLevelEntriesL, h_Unsupported, beq_eq_false_iff_ne.mpr h_RollDistances, beq_eq_false_iff_ne.mpr h_RollDistancesL, beq_eq_false_iff_ne.mpr h_AlternativeStartupEntries, beq_eq_false_iff_ne.mpr h_AlternativeStartupEntriesL, beq_eq_false_iff_ne.mpr h_VisualRandomAccessEntries, beq_eq_false_iff_ne.mpr h_VisualRandomAccessEntriesL, beq_eq_false_iff_ne.mpr h_TemporalLevelEntries, beq_eq_false_iff_ne.mpr h_TemporalLevelEntriesL, beq_eq_false_iff_ne.mpr h_Unsupported, sgpdLists]

theorem cfoAlternativeStartupEntryL_local : cfoAlternativeStartupEntryL.Local := by
  intro n ctx a b h
  simp only [cfoAlternativeStartupEntryL] at h ⊢
  by_cases h_AlternativeStartupEntry : n = "AlternativeStartupEntry"
  · subst h_AlternativeStartupEntry
    have h0 := h "DescriptionLength" (by decide)
    simp [SV.uint_congr h0, SV.int_congr h0, SV.bool_congr h0, SV.byteArr_congr h0]
  simp [h_AlternativeStartupEntry, beq_eq_false_iff_ne.mpr h_AlternativeStartupEntry]

theorem cfoStsz_local : cfoStsz.Local := by
  intro n ctx a b h
  simp only [cfoStsz] at h ⊢
  by_cases h_EntrySize : n = "EntrySize"
  · subst h_EntrySize
    have h0 := h "SampleSize" (by decide)
    have h1 := h "SampleCount" (by decide)
    simp [SV.uint_congr h0, SV.int_congr h0, SV.bool_congr h0, SV.byteArr_congr h0, SV.uint_congr h1, SV.int_congr h1, SV.bool_congr h1, SV.byteArr_congr h1]
  simp [h_EntrySize, beq_eq_false_iff_ne.mpr h_EntrySize]

theorem cfoTfra_local : cfoTfra.Local := by
  intro n ctx a b h
  simp only [cfoTfra] at h ⊢
  by_cases h_TrafNumber : n = "TrafNumber"
  · subst h_TrafNumber
    have h0 := h "LengthSizeOfTrafNum" (by decide)
    simp [SV.uint_congr h0, SV.int_congr h0, SV.bool_congr h0, SV.byteArr_congr h0]
  by_cases h_TrunNumber : n = "TrunNumber"
  · subst h_TrunNumber
    have h0 := h "LengthSizeOfTrunNum" (by decide)
    simp [SV.uint_congr h0, SV.int_congr h0, SV.bool_congr h0, SV.byteArr_congr h0]
  by_cases h_SampleNumber : n = "SampleNumber"
  · subst h_SampleNumber
    have h0 := h "LengthSizeOfSampleNum" (by decide)
    simp [SV.uint_congr h0, SV.int_congr h0, SV.bool_congr h0, SV.byteArr_congr h0]
  by_cases h_Entries : n = "Entries"
  · subst h_Entries
    have h0 := h "FullBox" (by decide)
    have h1 := h "LengthSizeOfTrafNum" (by decide)
    have h2 := h "LengthSizeOfTrunNum" (by decide)
    have h3 := h "LengthSizeOfSampleNum" (by decide)
    have h4 := h "NumberOfEntry" (by decide)
    simp [SV.version_congr h0, SV.flags_congr h0, SV.uint_congr h1, SV.int_congr h1, SV.bool_congr h1, SV.byteArr_congr h1, SV.uint_congr h2, SV.int_congr h2, SV.bool_congr h2, SV.byteArr_congr h2, SV.uint_congr h3, SV.int_congr h3, SV.bool_congr h3, SV.byteArr_congr h3, SV.uint_congr h4, SV.int_congr h4, SV.bool_congr h4, SV.byteArr_congr h4]
  simp [h_TrafNumber, h_TrunNumber, h_SampleNumber, h_Entries, beq_eq_false_iff_ne.mpr h_TrafNumber, beq_eq_false_iff_ne.mpr h_TrunNumber, beq_eq_false_iff_ne.mpr h_SampleNumber, beq_eq_false_iff_ne.mpr h_Entries]

theorem cfoTrun_local : cfoTrun.Local := by
  intro n ctx a b h
  simp only [cfoTrun] at h ⊢
  by_cases h_Entries : n = "Entries"
  · subst h_Entries
    have h0 := h "FullBox" (by decide)
    have h1 := h "SampleCount" (by decide)
    simp [SV.version_congr h0, SV.flags_congr h0, SV.uint_congr h1, SV.int_congr h1, SV.bool_congr h1, SV.byteArr_congr h1]
  simp [h_Entries, beq_eq_false_iff_ne.mpr h_Entries]

theorem cfoDescriptor_local : cfoDescriptor.Local := by
  intro n ctx a b h
  simp only [cfoDescriptor] at h ⊢
  have h0 := h "Tag" (by simp)
  have h1 := h "Size" (by simp)
  simp only [SV.uint_congr h0, SV.int_congr h0, SV.byteArr_congr h0, SV.uint_congr h1, SV.int_congr h1, SV.byteArr_congr h1, and_self]

theorem cfoESDescriptor_local : cfoESDescriptor.Local := by
  intro n ctx a b h
  simp only [cfoESDescriptor] at h ⊢
  by_cases h_DependsOnESID : n = "DependsOnESID"
  · subst h_DependsOnESID
    have h0 := h "StreamDependenceFlag" (by decide)
    simp [SV.uint_congr h0, SV.int_congr h0, SV.bool_congr h0, SV.byteArr_congr h0]
  by_cases h_URLLength : n = "URLLength"
  · subst h_URLLength
    have h0 := h "UrlFlag" (by decide)
    simp [SV.uint_congr h0, SV.int_congr h0, SV.bool_congr h0, SV.byteArr_congr h0]
  by_cases h_URLString : n = "URLString"
  · subst h_URLString
    have h0 := h "UrlFlag" (by decide)
    have h1 := h "URLLength" (by decide)
    simp [SV.uint_congr h0, SV.int_congr h0, SV.bool_congr h0, SV.byteArr_congr h0, SV.uint_congr h1, SV.int_congr h1, SV.bool_congr h1, SV.byteArr_congr h1]
  by_cases h_OCRESID : n = "OCRESID"
  · subst h_OCRESID
    have h0 := h "OcrStreamFlag" (by decide)
    simp [SV.uint_congr h0, SV.int_congr h0, SV.bool_congr h0, SV.byteArr_congr h0]
  simp [h_DependsOnESID, h_URLLength, h_URLString, h_OCRESID, beq_eq_false_iff_ne.mpr h_DependsOnESID, beq_eq_false_iff_ne.mpr h_URLLength, beq_eq_false_iff_ne.mpr h_URLString, beq_eq_false_iff_ne.mpr h_OCRESID]

theorem cfoPssh_local : cfoPssh.Local := by
  intro n ctx a b h
  simp only [cfoPssh] at h ⊢
  by_cases h_KIDs : n = "KIDs"
  · subst h_KIDs
    have h0 := h "KIDCount" (by decide)
    simp [SV.uint_congr h0, SV.int_congr h0, SV.bool_congr h0, SV.byteArr_congr h0]
  by_cases h_Data : n = "Data"
  · subst h_Data
    have h0 := h "DataSize" (by decide)
    simp [SV.uint_congr h0, SV.int_congr h0, SV.bool_congr h0, SV.byteArr_congr h0]
  simp [h_KIDs, h_Data, beq_eq_false_iff_ne.mpr h_KIDs, beq_eq_false_iff_ne.mpr h_Data]

theorem cfoTenc_local : cfoTenc.Local := by
  intro n ctx a b h
  simp only [cfoTenc] at h ⊢
  by_cases h_DefaultConstantIVSize : n = "DefaultConstantIVSize"
  · subst h_DefaultConstantIVSize
    have h0 := h "DefaultIsProtected" (by decide)
    have h1 := h "DefaultPerSampleIVSize" (by decide)
    simp [SV.uint_congr h0, SV.int_congr h0, SV.bool_congr h0, SV.byteArr_congr h0, SV.uint_congr h1, SV.int_congr h1, SV.bool_congr h1, SV.byteArr_congr h1]
  by_cases h_DefaultConstantIV : n = "DefaultConstantIV"
  · subst h_DefaultConstantIV
    have h0 := h "DefaultIsProtected" (by decide)
    have h1 := h "DefaultPerSampleIVSize" (by decide)
    have h2 := h "DefaultConstantIVSize" (by decide)
    simp [SV.uint_congr h0, SV.int_congr h0, SV.bool_congr h0, SV.byteArr_congr h0, SV.uint_congr h1, SV.int_congr h1, SV.bool_congr h1, SV.byteArr_congr h1, SV.uint_congr h2, SV.int_congr h2, SV.bool_congr h2, SV.byteArr_congr h2]
  simp [h_DefaultConstantIVSize, h_DefaultConstantIV, beq_eq_false_iff_ne.mpr h_DefaultConstantIVSize, beq_eq_false_iff_ne.mpr h_DefaultConstantIV]

theorem cfoKeys_local : cfoKeys.Local := by
  intro n ctx a b h
  simp only [cfoKeys] at h ⊢
  by_cases h_Entries : n = "Entries"
  · subst h_Entries
    have h0 := h "EntryCount" (by decide)
    simp [SV.uint_congr h0, SV.int_congr h0, SV.bool_congr h0, SV.byteArr_congr h0]
  simp [h_Entries, beq_eq_false_iff_ne.mpr h_Entries]

theorem cfoKey_local : cfoKey.Local := by
  intro n ctx a b h
  simp only [cfoKey] at h ⊢
  by_cases h_KeyValue : n = "KeyValue"
  · subst h_KeyValue
    have h0 := h "KeySize" (by decide)
    simp [SV.uint_congr h0, SV.int_congr h0, SV.bool_congr h0, SV.byteArr_congr h0]
  simp [h_KeyValue, beq_eq_false_iff_ne.mpr h_KeyValue]

theorem cfoDOps_local : cfoDOps.Local := by
  intro n ctx a b h
  simp only [cfoDOps] at h ⊢
  by_cases h_StreamCount : n = "StreamCount"
  · subst h_StreamCount
    have h0 := h "ChannelMappingFamily" (by decide)
    simp [SV.uint_congr h0, SV.int_congr h0, SV.bool_congr h0, SV.byteArr_congr h0]
  by_cases h_CoupledCount : n = "CoupledCount"
  · subst h_CoupledCount
    have h0 := h "ChannelMappingFamily" (by decide)
    simp [SV.uint_congr h0, SV.int_congr h0, SV.bool_congr h0, SV.byteArr_congr h0]
  by_cases h_ChannelMapping : n = "ChannelMapping"
  · subst h_ChannelMapping
    have h0 := h "ChannelMappingFamily" (by decide)
    have h1 := h "OutputChannelCount" (by decide)
    simp [SV.uint_congr h0, SV.int_congr h0, SV.bool_congr h0, SV.byteArr_congr h0, SV.uint_congr h1, SV.int_congr h1, SV.bool_congr h1, SV.byteArr_congr h1]
  simp [h_StreamCount, h_CoupledCount, h_ChannelMapping, beq_eq_false_iff_ne.mpr h_StreamCount, beq_eq_false_iff_ne.mpr h_CoupledCount, beq_eq_false_iff_ne.mpr h_ChannelMapping]

theorem fullBoxTy_local : fullBoxTy.AllLocal := by
  simp [fullBoxTy, Ty.AllLocal, Fields.AllLocal, Cfo.base_local]

theorem tySampleEntry_local : Cat.tySampleEntry.AllLocal := by
  simp [Cat.tySampleEntry, Cat.fsSampleEntry, Fields.ofList, Ty.AllLocal, Fields.AllLocal, Cfo.base_local]

theorem tyCttsEntry_local : Cat.tyCttsEntry.AllLocal := by
  simp [Cat.tyCttsEntry, Cat.fsCttsEntry, Fields.ofList, Ty.AllLocal, Fields.AllLocal]

theorem tyElstEntry_local : Cat.tyElstEntry.AllLocal := by
  simp [Cat.tyElstEntry, Cat.fsElstEntry, Fields.ofList, Ty.AllLocal, Fields.AllLocal]

theorem tyCompatibleBrandElem_local : Cat.tyCompatibleBrandElem.AllLocal := by
  simp [Cat.tyCompatibleBrandElem, Cat.fsCompatibleBrandElem, Fields.ofList, Ty.AllLocal, Fields.AllLocal]

theorem tyHEVCNalu_local : Cat.tyHEVCNalu.AllLocal := by
  simp [Cat.tyHEVCNalu, Cat.fsHEVCNalu, Fields.ofList, Ty.AllLocal, Fields.AllLocal, cfoHEVCNalu_local]

theorem tyHEVCNaluArray_local : Cat.tyHEVCNaluArray.AllLocal := by
  simp [Cat.tyHEVCNaluArray, Cat.fsHEVCNaluArray, Fields.ofList, Ty.AllLocal, Fields.AllLocal, cfoHEVCNaluArray_local, tyHEVCNalu_local]

theorem tyAVCParameterSet_local : Cat.tyAVCParameterSet.AllLocal := by
  simp [Cat.tyAVCParameterSet, Cat.fsAVCParameterSet, Fields.ofList, Ty.AllLocal, Fields.AllLocal, cfoAVCParameterSet_local]

theorem tySbgpEntry_local : Cat.tySbgpEntry.AllLocal := by
  simp [Cat.tySbgpEntry, Cat.fsSbgpEntry, Fields.ofList, Ty.AllLocal, Fields.AllLocal]

theorem tySdtpSampleElem_local : Cat.tySdtpSampleElem.AllLocal := by
  simp [Cat.tySdtpSampleElem, Cat.fsSdtpSampleElem, Fields.ofList, Ty.AllLocal, Fields.AllLocal]

theorem tyRollDistanceWithLength_local : Cat.tyRollDistanceWithLength.AllLocal := by
  simp [Cat.tyRollDistanceWithLength, Cat.fsRollDistanceWithLength, Fields.ofList, Ty.AllLocal, Fields.AllLocal]

theorem tyAlternativeStartupEntryOpt_local : Cat.tyAlternativeStartupEntryOpt.AllLocal := by
  simp [Cat.tyAlternativeStartupEntryOpt, Cat.fsAlternativeStartupEntryOpt, Fields.ofList, Ty.AllLocal, Fields.AllLocal]

theorem tyAlternativeStartupEntry_local : Cat.tyAlternativeStartupEntry.AllLocal := by
  simp [Cat.tyAlternativeStartupEntry, Cat.fsAlternativeStartupEntry, Fields.ofList, Ty.AllLocal, Fields.AllLocal, cfoAlternativeStartupEntry_local, tyAlternativeStartupEntryOpt_local]

theorem tyAlternativeStartupEntryL_local : Cat.tyAlternativeStartupEntryL.AllLocal := by
  simp [Cat.tyAlternativeStartupEntryL, Cat.fsAlternativeStartupEntryL, Fields.ofList, Ty.AllLocal, Fields.AllLocal, cfoAlternativeStartupEntryL_local, tyAlternativeStartupEntry_local]

theorem tyVisualRandomAccessEntry_local : Cat.tyVisualRandomAccessEntry.AllLocal := by
  simp [Cat.tyVisualRandomAccessEntry, Cat.fsVisualRandomAccessEntry, Fields.ofList, Ty.AllLocal, Fields.AllLocal]

theorem tyVisualRandomAccessEntryL_local : Cat.tyVisualRandomAccessEntryL.AllLocal := by
  simp [Cat.tyVisualRandomAccessEntryL, Cat.fsVisualRandomAccessEntryL, Fields.ofList, Ty.AllLocal, Fields.AllLocal, tyVisualRandomAccessEntry_local]

theorem tyTemporalLevelEntry_local : Cat.tyTemporalLevelEntry.AllLocal := by
  simp [Cat.tyTemporalLevelEntry, Cat.fsTemporalLevelEntry, Fields.ofList, Ty.AllLocal, Fields.AllLocal]

theorem tyTemporalLevelEntryL_local : Cat.tyTemporalLevelEntryL.AllLocal := by
  simp [Cat.tyTemporalLevelEntryL, Cat.fsTemporalLevelEntryL, Fields.ofList, Ty.AllLocal, Fields.AllLocal, tyTemporalLevelEntry_local]

theorem tySidxReference_local : Cat.tySidxReference.AllLocal := by
  simp [Cat.tySidxReference, Cat.fsSidxReference, Fields.ofList, Ty.AllLocal, Fields.AllLocal]

theorem tyStscEntry_local : Cat.tyStscEntry.AllLocal := by
  simp [Cat.tyStscEntry, Cat.fsStscEntry, Fields.ofList, Ty.AllLocal, Fields.AllLocal]

theorem tySttsEntry_local : Cat.tySttsEntry.AllLocal := by
  simp [Cat.tySttsEntry, Cat.fsSttsEntry, Fields.ofList, Ty.AllLocal, Fields.AllLocal]

theorem tyTfraEntry_local : Cat.tyTfraEntry.AllLocal := by
  simp [Cat.tyTfraEntry, Cat.fsTfraEntry, Fields.ofList, Ty.AllLocal, Fields.AllLocal]

theorem tyTrunEntry_local : Cat.tyTrunEntry.AllLocal := by
  simp [Cat.tyTrunEntry, Cat.fsTrunEntry, Fields.ofList, Ty.AllLocal, Fields.AllLocal]

theorem tyESDescriptor_local : Cat.tyESDescriptor.AllLocal := by
  simp [Cat.tyESDescriptor, Cat.fsESDescriptor, Fields.ofList, Ty.AllLocal, Fields.AllLocal, cfoESDescriptor_local]

theorem tyDecoderConfigDescriptor_local : Cat.tyDecoderConfigDescriptor.AllLocal := by
  simp [Cat.tyDecoderConfigDescriptor, Cat.fsDecoderConfigDescriptor, Fields.ofList, Ty.AllLocal, Fields.AllLocal, Cfo.base_local]

theorem tyDescriptor_local : Cat.tyDescriptor.AllLocal := by
  simp [Cat.tyDescriptor, Cat.fsDescriptor, Fields.ofList, Ty.AllLocal, Fields.AllLocal, cfoDescriptor_local, tyDecoderConfigDescriptor_local, tyESDescriptor_local]

theorem tyPsshKID_local : Cat.tyPsshKID.AllLocal := by
  simp [Cat.tyPsshKID, Cat.fsPsshKID, Fields.ofList, Ty.AllLocal, Fields.AllLocal]

theorem tyData_local : Cat.tyData.AllLocal := by
  simp [Cat.tyData, Cat.fsData, Fields.ofList, Ty.AllLocal, Fields.AllLocal, Cfo.base_local]

theorem tyKey_local : Cat.tyKey.AllLocal := by
  simp [Cat.tyKey, Cat.fsKey, Fields.ofList, Ty.AllLocal, Fields.AllLocal, cfoKey_local]

theorem bdUdta3GppString_local : Cat.bdUdta3GppString.cfo.Local ∧ Cat.bdUdta3GppString.fields.AllLocal :=
  ⟨Cfo.base_local, by simp [Cat.bdUdta3GppString, Cat.fsUdta3GppString, Fields.ofList, Ty.AllLocal, Fields.AllLocal, fullBoxTy_local]⟩

theorem bdVisualSampleEntry_local : Cat.bdVisualSampleEntry.cfo.Local ∧ Cat.bdVisualSampleEntry.fields.AllLocal :=
  ⟨Cfo.base_local, by simp [Cat.bdVisualSampleEntry, Cat.fsVisualSampleEntry, Fields.ofList, Ty.AllLocal, Fields.AllLocal, tySampleEntry_local]⟩

theorem bdAv1C_local : Cat.bdAv1C.cfo.Local ∧ Cat.bdAv1C.fields.AllLocal :=
  ⟨Cfo.base_local, by simp [Cat.bdAv1C, Cat.fsAv1C, Fields.ofList, Ty.AllLocal, Fields.AllLocal]⟩

theorem bdAudioSampleEntry_local : Cat.bdAudioSampleEntry.cfo.Local ∧ Cat.bdAudioSampleEntry.fields.AllLocal :=
  ⟨cfoAudioSampleEntry_local, by simp [Cat.bdAudioSampleEntry, Cat.fsAudioSampleEntry, Fields.ofList, Ty.AllLocal, Fields.AllLocal, tySampleEntry_local]⟩

theorem bdDac3_local : Cat.bdDac3.cfo.Local ∧ Cat.bdDac3.fields.AllLocal :=
  ⟨Cfo.base_local, by simp [Cat.bdDac3, Cat.fsDac3, Fields.ofList, Ty.AllLocal, Fields.AllLocal]⟩

theorem bdBtrt_local : Cat.bdBtrt.cfo.Local ∧ Cat.bdBtrt.fields.AllLocal :=
  ⟨Cfo.base_local, by simp [Cat.bdBtrt, Cat.fsBtrt, Fields.ofList, Ty.AllLocal, Fields.AllLocal]⟩

theorem bdCo64_local : Cat.bdCo64.cfo.Local ∧ Cat.bdCo64.fields.AllLocal :=
  ⟨cfoCo64_local, by simp [Cat.bdCo64, Cat.fsCo64, Fields.ofList, Ty.AllLocal, Fields.AllLocal, fullBoxTy_local]⟩

theorem bdColr_local : Cat.bdColr.cfo.Local ∧ Cat.bdColr.fields.AllLocal :=
  ⟨cfoColr_local, by simp [Cat.bdColr, Cat.fsColr, Fields.ofList, Ty.AllLocal, Fields.AllLocal]⟩

theorem bdCslg_local : Cat.bdCslg.cfo.Local ∧ Cat.bdCslg.fields.AllLocal :=
  ⟨Cfo.base_local, by simp [Cat.bdCslg, Cat.fsCslg, Fields.ofList, Ty.AllLocal, Fields.AllLocal, fullBoxTy_local]⟩

theorem bdCtts_local : Cat.bdCtts.cfo.Local ∧ Cat.bdCtts.fields.AllLocal :=
  ⟨cfoCtts_local, by simp [Cat.bdCtts, Cat.fsCtts, Fields.ofList, Ty.AllLocal, Fields.AllLocal, fullBoxTy_local, tyCttsEntry_local]⟩

theorem bdDinf_local : Cat.bdDinf.cfo.Local ∧ Cat.bdDinf.fields.AllLocal :=
  ⟨Cfo.base_local, by simp [Cat.bdDinf, Cat.fsDinf, Fields.ofList, Ty.AllLocal, Fields.AllLocal]⟩

theorem bdDref_local : Cat.bdDref.cfo.Local ∧ Cat.bdDref.fields.AllLocal :=
  ⟨Cfo.base_local, by simp [Cat.bdDref, Cat.fsDref, Fields.ofList, Ty.AllLocal, Fields.AllLocal, fullBoxTy_local]⟩

theorem bdUrl_local : Cat.bdUrl.cfo.Local ∧ Cat.bdUrl.fields.AllLocal :=
  ⟨Cfo.base_local, by simp [Cat.bdUrl, Cat.fsUrl, Fields.ofList, Ty.AllLocal, Fields.AllLocal, fullBoxTy_local]⟩

theorem bdUrn_local : Cat.bdUrn.cfo.Local ∧ Cat.bdUrn.fields.AllLocal :=
  ⟨Cfo.base_local, by simp [Cat.bdUrn, Cat.fsUrn, Fields.ofList, Ty.AllLocal, Fields.AllLocal, fullBoxTy_local]⟩

theorem bdEdts_local : Cat.bdEdts.cfo.Local ∧ Cat.bdEdts.fields.AllLocal :=
  ⟨Cfo.base_local, by simp [Cat.bdEdts, Cat.fsEdts, Fields.ofList, Ty.AllLocal, Fields.AllLocal]⟩

theorem bdElst_local : Cat.bdElst.cfo.Local ∧ Cat.bdElst.fields.AllLocal :=
  ⟨cfoElst_local, by simp [Cat.bdElst, Cat.fsElst, Fields.ofList, Ty.AllLocal, Fields.AllLocal, fullBoxTy_local, tyElstEntry_local]⟩

theorem bdEmsg_local : Cat.bdEmsg.cfo.Local ∧ Cat.bdEmsg.fields.AllLocal :=
  ⟨Cfo.base_local, by simp [Cat.bdEmsg, Cat.fsEmsg, Fields.ofList, Ty.AllLocal, Fields.AllLocal, fullBoxTy_local]⟩

theorem bdFiel_local : Cat.bdFiel.cfo.Local ∧ Cat.bdFiel.fields.AllLocal :=
  ⟨Cfo.base_local, by simp [Cat.bdFiel, Cat.fsFiel, Fields.ofList, Ty.AllLocal, Fields.AllLocal]⟩

theorem bdFree_local : Cat.bdFree.cfo.Local ∧ Cat.bdFree.fields.AllLocal :=
  ⟨Cfo.base_local, by simp [Cat.bdFree, Cat.fsFreeSpace, Fields.ofList, Ty.AllLocal, Fields.AllLocal]⟩

theorem bdSkip_local : Cat.bdSkip.cfo.Local ∧ Cat.bdSkip.fields.AllLocal :=
  ⟨Cfo.base_local, by simp [Cat.bdSkip, Cat.fsFreeSpace, Fields.ofList, Ty.AllLocal, Fields.AllLocal]⟩

theorem bdFrma_local : Cat.bdFrma.cfo.Local ∧ Cat.bdFrma.fields.AllLocal :=
  ⟨Cfo.base_local, by simp [Cat.bdFrma, Cat.fsFrma, Fields.ofList, Ty.AllLocal, Fields.AllLocal]⟩

theorem bdFtyp_local : Cat.bdFtyp.cfo.Local ∧ Cat.bdFtyp.fields.AllLocal :=
  ⟨Cfo.base_local, by simp [Cat.bdFtyp, Cat.fsFtyp, Fields.ofList, Ty.AllLocal, Fields.AllLocal, tyCompatibleBrandElem_local]⟩

theorem bdHdlr_local : Cat.bdHdlr.cfo.Local ∧ Cat.bdHdlr.fields.AllLocal :=
  ⟨Cfo.base_local, by simp [Cat.bdHdlr, Cat.fsHdlr, Fields.ofList, Ty.AllLocal, Fields.AllLocal, fullBoxTy_local]⟩

theorem bdHvcC_local : Cat.bdHvcC.cfo.Local ∧ Cat.bdHvcC.fields.AllLocal :=
  ⟨cfoHvcC_local, by simp [Cat.bdHvcC, Cat.fsHvcC, Fields.ofList, Ty.AllLocal, Fields.AllLocal, tyHEVCNaluArray_local]⟩

theorem bdMdat_local : Cat.bdMdat.cfo.Local ∧ Cat.bdMdat.fields.AllLocal :=
  ⟨Cfo.base_local, by simp [Cat.bdMdat, Cat.fsMdat, Fields.ofList, Ty.AllLocal, Fields.AllLocal]⟩

theorem bdMdhd_local : Cat.bdMdhd.cfo.Local ∧ Cat.bdMdhd.fields.AllLocal :=
  ⟨Cfo.base_local, by simp [Cat.bdMdhd, Cat.fsMdhd, Fields.ofList, Ty.AllLocal, Fields.AllLocal, fullBoxTy_local]⟩

theorem bdMdia_local : Cat.bdMdia.cfo.Local ∧ Cat.bdMdia.fields.AllLocal :=
  ⟨Cfo.base_local, by simp [Cat.bdMdia, Cat.fsMdia, Fields.ofList, Ty.AllLocal, Fields.AllLocal]⟩

theorem bdMehd_local : Cat.bdMehd.cfo.Local ∧ Cat.bdMehd.fields.AllLocal :=
  ⟨Cfo.base_local, by simp [Cat.bdMehd, Cat.fsMehd, Fields.ofList, Ty.AllLocal, Fields.AllLocal, fullBoxTy_local]⟩

theorem bdMeta_local : Cat.bdMeta.cfo.Local ∧ Cat.bdMeta.fields.AllLocal :=
  ⟨Cfo.base_local, by simp [Cat.bdMeta, Cat.fsMeta, Fields.ofList, Ty.AllLocal, Fields.AllLocal, fullBoxTy_local]⟩

theorem bdMfhd_local : Cat.bdMfhd.cfo.Local ∧ Cat.bdMfhd.fields.AllLocal :=
  ⟨Cfo.base_local, by simp [Cat.bdMfhd, Cat.fsMfhd, Fields.ofList, Ty.AllLocal, Fields.AllLocal, fullBoxTy_local]⟩

theorem bdMfra_local : Cat.bdMfra.cfo.Local ∧ Cat.bdMfra.fields.AllLocal :=
  ⟨Cfo.base_local, by simp [Cat.bdMfra, Cat.fsMfra, Fields.ofList, Ty.AllLocal, Fields.AllLocal]⟩

theorem bdMfro_local : Cat.bdMfro.cfo.Local ∧ Cat.bdMfro.fields.AllLocal :=
  ⟨Cfo.base_local, by simp [Cat.bdMfro, Cat.fsMfro, Fields.ofList, Ty.AllLocal, Fields.AllLocal, fullBoxTy_local]⟩

theorem bdMinf_local : Cat.bdMinf.cfo.Local ∧ Cat.bdMinf.fields.AllLocal :=
  ⟨Cfo.base_local, by simp [Cat.bdMinf, Cat.fsMinf, Fields.ofList, Ty.AllLocal, Fields.AllLocal]⟩

theorem bdMoof_local : Cat.bdMoof.cfo.Local ∧ Cat.bdMoof.fields.AllLocal :=
  ⟨Cfo.base_local, by simp [Cat.bdMoof, Cat.fsMoof, Fields.ofList, Ty.AllLocal, Fields.AllLocal]⟩

theorem bdMoov_local : Cat.bdMoov.cfo.Local ∧ Cat.bdMoov.fields.AllLocal :=
  ⟨Cfo.base_local, by simp [Cat.bdMoov, Cat.fsMoov, Fields.ofList, Ty.AllLocal, Fields.AllLocal]⟩

theorem bdMvex_local : Cat.bdMvex.cfo.Local ∧ Cat.bdMvex.fields.AllLocal :=
  ⟨Cfo.base_local, by simp [Cat.bdMvex, Cat.fsMvex, Fields.ofList, Ty.AllLocal, Fields.AllLocal]⟩

theorem bdMvhd_local : Cat.bdMvhd.cfo.Local ∧ Cat.bdMvhd.fields.AllLocal :=
  ⟨Cfo.base_local, by simp [Cat.bdMvhd, Cat.fsMvhd, Fields.ofList, Ty.AllLocal, Fields.AllLocal, fullBoxTy_local]⟩

theorem bdSaio_local : Cat.bdSaio.cfo.Local ∧ Cat.bdSaio.fields.AllLocal :=
  ⟨cfoSaio_local, by simp [Cat.bdSaio, Cat.fsSaio, Fields.ofList, Ty.AllLocal, Fields.AllLocal, fullBoxTy_local]⟩

theorem bdSaiz_local : Cat.bdSaiz.cfo.Local ∧ Cat.bdSaiz.fields.AllLocal :=
  ⟨cfoSaiz_local, by simp [Cat.bdSaiz, Cat.fsSaiz, Fields.ofList, Ty.AllLocal, Fields.AllLocal, fullBoxTy_local]⟩

theorem bdAVCDecoderConfiguration_local : Cat.bdAVCDecoderConfiguration.cfo.Local ∧ Cat.bdAVCDecoderConfiguration.fields.AllLocal :=
  ⟨cfoAVCDecoderConfiguration_local, by simp [Cat.bdAVCDecoderConfiguration, Cat.fsAVCDecoderConfiguration, Fields.ofList, Ty.AllLocal, Fields.AllLocal, tyAVCParameterSet_local]⟩

theorem bdPixelAspectRatioBox_local : Cat.bdPixelAspectRatioBox.cfo.Local ∧ Cat.bdPixelAspectRatioBox.fields.AllLocal :=
  ⟨Cfo.base_local, by simp [Cat.bdPixelAspectRatioBox, Cat.fsPixelAspectRatioBox, Fields.ofList, Ty.AllLocal, Fields.AllLocal]⟩

theorem bdXMLSubtitleSampleEntry_local : Cat.bdXMLSubtitleSampleEntry.cfo.Local ∧ Cat.bdXMLSubtitleSampleEntry.fields.AllLocal :=
  ⟨Cfo.base_local, by simp [Cat.bdXMLSubtitleSampleEntry, Cat.fsXMLSubtitleSampleEntry, Fields.ofList, Ty.AllLocal, Fields.AllLocal, tySampleEntry_local]⟩

theorem bdTextSubtitleSampleEntry_local : Cat.bdTextSubtitleSampleEntry.cfo.Local ∧ Cat.bdTextSubtitleSampleEntry.fields.AllLocal :=
  ⟨Cfo.base_local, by simp [Cat.bdTextSubtitleSampleEntry, Cat.fsTextSubtitleSampleEntry, Fields.ofList, Ty.AllLocal, Fields.AllLocal, tySampleEntry_local]⟩

theorem bdSbgp_local : Cat.bdSbgp.cfo.Local ∧ Cat.bdSbgp.fields.AllLocal :=
  ⟨cfoSbgp_local, by simp [Cat.bdSbgp, Cat.fsSbgp, Fields.ofList, Ty.AllLocal, Fields.AllLocal, fullBoxTy_local, tySbgpEntry_local]⟩

theorem bdSchi_local : Cat.bdSchi.cfo.Local ∧ Cat.bdSchi.fields.AllLocal :=
  ⟨Cfo.base_local, by simp [Cat.bdSchi, Cat.fsSchi, Fields.ofList, Ty.AllLocal, Fields.AllLocal]⟩

theorem bdSchm_local : Cat.bdSchm.cfo.Local ∧ Cat.bdSchm.fields.AllLocal :=
  ⟨Cfo.base_local, by simp [Cat.bdSchm, Cat.fsSchm, Fields.ofList, Ty.AllLocal, Fields.AllLocal, fullBoxTy_local]⟩

theorem bdSdtp_local : Cat.bdSdtp.cfo.Local ∧ Cat.bdSdtp.fields.AllLocal :=
  ⟨Cfo.base_local, by simp [Cat.bdSdtp, Cat.fsSdtp, Fields.ofList, Ty.AllLocal, Fields.AllLocal, fullBoxTy_local, tySdtpSampleElem_local]⟩

theorem bdSgpd_local : Cat.bdSgpd.cfo.Local ∧ Cat.bdSgpd.fields.AllLocal :=
  ⟨cfoSgpd_local, by simp [Cat.bdSgpd, Cat.fsSgpd, Fields.ofList, Ty.AllLocal, Fields.AllLocal, fullBoxTy_local, tyAlternativeStartupEntry_local, tyAlternativeStartupEntryL_local, tyRollDistanceWithLength_local, tyTemporalLevelEntry_local, tyTemporalLevelEntryL_local, tyVisualRandomAccessEntry_local, tyVisualRandomAccessEntryL_local]⟩

theorem bdSidx_local : Cat.bdSidx.cfo.Local ∧ Cat.bdSidx.fields.AllLocal :=
  ⟨cfoSidx_local, by simp [Cat.bdSidx, Cat.fsSidx, Fields.ofList, Ty.AllLocal, Fields.AllLocal, fullBoxTy_local, tySidxReference_local]⟩

theorem bdSinf_local : Cat.bdSinf.cfo.Local ∧ Cat.bdSinf.fields.AllLocal :=
  ⟨Cfo.base_local, by simp [Cat.bdSinf, Cat.fsSinf, Fields.ofList, Ty.AllLocal, Fields.AllLocal]⟩

theorem bdSmhd_local : Cat.bdSmhd.cfo.Local ∧ Cat.bdSmhd.fields.AllLocal :=
  ⟨Cfo.base_local, by simp [Cat.bdSmhd, Cat.fsSmhd, Fields.ofList, Ty.AllLocal, Fields.AllLocal, fullBoxTy_local]⟩

theorem bdStbl_local : Cat.bdStbl.cfo.Local ∧ Cat.bdStbl.fields.AllLocal :=
  ⟨Cfo.base_local, by simp [Cat.bdStbl, Cat.fsStbl, Fields.ofList, Ty.AllLocal, Fields.AllLocal]⟩

theorem bdStco_local : Cat.bdStco.cfo.Local ∧ Cat.bdStco.fields.AllLocal :=
  ⟨cfoStco_local, by simp [Cat.bdStco, Cat.fsStco, Fields.ofList, Ty.AllLocal, Fields.AllLocal, fullBoxTy_local]⟩

theorem bdStsc_local : Cat.bdStsc.cfo.Local ∧ Cat.bdStsc.fields.AllLocal :=
  ⟨cfoStsc_local, by simp [Cat.bdStsc, Cat.fsStsc, Fields.ofList, Ty.AllLocal, Fields.AllLocal, fullBoxTy_local, tyStscEntry_local]⟩

theorem bdStsd_local : Cat.bdStsd.cfo.Local ∧ Cat.bdStsd.fields.AllLocal :=
  ⟨Cfo.base_local, by simp [Cat.bdStsd, Cat.fsStsd, Fields.ofList, Ty.AllLocal, Fields.AllLocal, fullBoxTy_local]⟩

theorem bdStss_local : Cat.bdStss.cfo.Local ∧ Cat.bdStss.fields.AllLocal :=
  ⟨cfoStss_local, by simp [Cat.bdStss, Cat.fsStss, Fields.ofList, Ty.AllLocal, Fields.AllLocal, fullBoxTy_local]⟩

theorem bdStsz_local : Cat.bdStsz.cfo.Local ∧ Cat.bdStsz.fields.AllLocal :=
  ⟨cfoStsz_local, by simp [Cat.bdStsz, Cat.fsStsz, Fields.ofList, Ty.AllLocal, Fields.AllLocal, fullBoxTy_local]⟩

theorem bdStts_local : Cat.bdStts.cfo.Local ∧ Cat.bdStts.fields.AllLocal :=
  ⟨cfoStts_local, by simp [Cat.bdStts, Cat.fsStts, Fields.ofList, Ty.AllLocal, Fields.AllLocal, fullBoxTy_local, tySttsEntry_local]⟩

theorem bdStyp_local : Cat.bdStyp.cfo.Local ∧ Cat.bdStyp.fields.AllLocal :=
  ⟨Cfo.base_local, by simp [Cat.bdStyp, Cat.fsStyp, Fields.ofList, Ty.AllLocal, Fields.AllLocal, tyCompatibleBrandElem_local]⟩

theorem bdTfdt_local : Cat.bdTfdt.cfo.Local ∧ Cat.bdTfdt.fields.AllLocal :=
  ⟨Cfo.base_local, by simp [Cat.bdTfdt, Cat.fsTfdt, Fields.ofList, Ty.AllLocal, Fields.AllLocal, fullBoxTy_local]⟩

theorem bdTfhd_local : Cat.bdTfhd.cfo.Local ∧ Cat.bdTfhd.fields.AllLocal :=
  ⟨Cfo.base_local, by simp [Cat.bdTfhd, Cat.fsTfhd, Fields.ofList, Ty.AllLocal, Fields.AllLocal, fullBoxTy_local]⟩

theorem bdTfra_local : Cat.bdTfra.cfo.Local ∧ Cat.bdTfra.fields.AllLocal :=
  ⟨cfoTfra_local, by simp [Cat.bdTfra, Cat.fsTfra, Fields.ofList, Ty.AllLocal, Fields.AllLocal, fullBoxTy_local, tyTfraEntry_local]⟩

theorem bdTkhd_local : Cat.bdTkhd.cfo.Local ∧ Cat.bdTkhd.fields.AllLocal :=
  ⟨Cfo.base_local, by simp [Cat.bdTkhd, Cat.fsTkhd, Fields.ofList, Ty.AllLocal, Fields.AllLocal, fullBoxTy_local]⟩

theorem bdTraf_local : Cat.bdTraf.cfo.Local ∧ Cat.bdTraf.fields.AllLocal :=
  ⟨Cfo.base_local, by simp [Cat.bdTraf, Cat.fsTraf, Fields.ofList, Ty.AllLocal, Fields.AllLocal]⟩

theorem bdTrak_local : Cat.bdTrak.cfo.Local ∧ Cat.bdTrak.fields.AllLocal :=
  ⟨Cfo.base_local, by simp [Cat.bdTrak, Cat.fsTrak, Fields.ofList, Ty.AllLocal, Fields.AllLocal]⟩

theorem bdTrep_local : Cat.bdTrep.cfo.Local ∧ Cat.bdTrep.fields.AllLocal :=
  ⟨Cfo.base_local, by simp [Cat.bdTrep, Cat.fsTrep, Fields.ofList, Ty.AllLocal, Fields.AllLocal, fullBoxTy_local]⟩

theorem bdTrex_local : Cat.bdTrex.cfo.Local ∧ Cat.bdTrex.fields.AllLocal :=
  ⟨Cfo.base_local, by simp [Cat.bdTrex, Cat.fsTrex, Fields.ofList, Ty.AllLocal, Fields.AllLocal, fullBoxTy_local]⟩

theorem bdTrun_local : Cat.bdTrun.cfo.Local ∧ Cat.bdTrun.fields.AllLocal :=
  ⟨cfoTrun_local, by simp [Cat.bdTrun, Cat.fsTrun, Fields.ofList, Ty.AllLocal, Fields.AllLocal, fullBoxTy_local, tyTrunEntry_local]⟩

theorem bdUdta_local : Cat.bdUdta.cfo.Local ∧ Cat.bdUdta.fields.AllLocal :=
  ⟨Cfo.base_local, by simp [Cat.bdUdta, Cat.fsUdta, Fields.ofList, Ty.AllLocal, Fields.AllLocal]⟩

theorem bdVmhd_local : Cat.bdVmhd.cfo.Local ∧ Cat.bdVmhd.fields.AllLocal :=
  ⟨Cfo.base_local, by simp [Cat.bdVmhd, Cat.fsVmhd, Fields.ofList, Ty.AllLocal, Fields.AllLocal, fullBoxTy_local]⟩

theorem bdWave_local : Cat.bdWave.cfo.Local ∧ Cat.bdWave.fields.AllLocal :=
  ⟨Cfo.base_local, by simp [Cat.bdWave, Cat.fsWave, Fields.ofList, Ty.AllLocal, Fields.AllLocal]⟩

theorem bdEsds_local : Cat.bdEsds.cfo.Local ∧ Cat.bdEsds.fields.AllLocal :=
  ⟨Cfo.base_local, by simp [Cat.bdEsds, Cat.fsEsds, Fields.ofList, Ty.AllLocal, Fields.AllLocal, fullBoxTy_local, tyDescriptor_local]⟩

theorem bdWebVTTConfigurationBox_local : Cat.bdWebVTTConfigurationBox.cfo.Local ∧ Cat.bdWebVTTConfigurationBox.fields.AllLocal :=
  ⟨Cfo.base_local, by simp [Cat.bdWebVTTConfigurationBox, Cat.fsWebVTTConfigurationBox, Fields.ofList, Ty.AllLocal, Fields.AllLocal]⟩

theorem bdWebVTTSourceLabelBox_local : Cat.bdWebVTTSourceLabelBox.cfo.Local ∧ Cat.bdWebVTTSourceLabelBox.fields.AllLocal :=
  ⟨Cfo.base_local, by simp [Cat.bdWebVTTSourceLabelBox, Cat.fsWebVTTSourceLabelBox, Fields.ofList, Ty.AllLocal, Fields.AllLocal]⟩

theorem bdWVTTSampleEntry_local : Cat.bdWVTTSampleEntry.cfo.Local ∧ Cat.bdWVTTSampleEntry.fields.AllLocal :=
  ⟨Cfo.base_local, by simp [Cat.bdWVTTSampleEntry, Cat.fsWVTTSampleEntry, Fields.ofList, Ty.AllLocal, Fields.AllLocal, tySampleEntry_local]⟩

theorem bdVTTCueBox_local : Cat.bdVTTCueBox.cfo.Local ∧ Cat.bdVTTCueBox.fields.AllLocal :=
  ⟨Cfo.base_local, by simp [Cat.bdVTTCueBox, Cat.fsVTTCueBox, Fields.ofList, Ty.AllLocal, Fields.AllLocal]⟩

theorem bdCueSourceIDBox_local : Cat.bdCueSourceIDBox.cfo.Local ∧ Cat.bdCueSourceIDBox.fields.AllLocal :=
  ⟨Cfo.base_local, by simp [Cat.bdCueSourceIDBox, Cat.fsCueSourceIDBox, Fields.ofList, Ty.AllLocal, Fields.AllLocal]⟩

theorem bdCueTimeBox_local : Cat.bdCueTimeBox.cfo.Local ∧ Cat.bdCueTimeBox.fields.AllLocal :=
  ⟨Cfo.base_local, by simp [Cat.bdCueTimeBox, Cat.fsCueTimeBox, Fields.ofList, Ty.AllLocal, Fields.AllLocal]⟩

theorem bdCueIDBox_local : Cat.bdCueIDBox.cfo.Local ∧ Cat.bdCueIDBox.fields.AllLocal :=
  ⟨Cfo.base_local, by simp [Cat.bdCueIDBox, Cat.fsCueIDBox, Fields.ofList, Ty.AllLocal, Fields.AllLocal]⟩

theorem bdCueSettingsBox_local : Cat.bdCueSettingsBox.cfo.Local ∧ Cat.bdCueSettingsBox.fields.AllLocal :=
  ⟨Cfo.base_local, by simp [Cat.bdCueSettingsBox, Cat.fsCueSettingsBox, Fields.ofList, Ty.AllLocal, Fields.AllLocal]⟩

theorem bdCuePayloadBox_local : Cat.bdCuePayloadBox.cfo.Local ∧ Cat.bdCuePayloadBox.fields.AllLocal :=
  ⟨Cfo.base_local, by simp [Cat.bdCuePayloadBox, Cat.fsCuePayloadBox, Fields.ofList, Ty.AllLocal, Fields.AllLocal]⟩

theorem bdVTTEmptyCueBox_local : Cat.bdVTTEmptyCueBox.cfo.Local ∧ Cat.bdVTTEmptyCueBox.fields.AllLocal :=
  ⟨Cfo.base_local, by simp [Cat.bdVTTEmptyCueBox, Cat.fsVTTEmptyCueBox, Fields.ofList, Ty.AllLocal, Fields.AllLocal]⟩

theorem bdVTTAdditionalTextBox_local : Cat.bdVTTAdditionalTextBox.cfo.Local ∧ Cat.bdVTTAdditionalTextBox.fields.AllLocal :=
  ⟨Cfo.base_local, by simp [Cat.bdVTTAdditionalTextBox, Cat.fsVTTAdditionalTextBox, Fields.ofList, Ty.AllLocal, Fields.AllLocal]⟩

theorem bdPcmC_local : Cat.bdPcmC.cfo.Local ∧ Cat.bdPcmC.fields.AllLocal :=
  ⟨Cfo.base_local, by simp [Cat.bdPcmC, Cat.fsPcmC, Fields.ofList, Ty.AllLocal, Fields.AllLocal, fullBoxTy_local]⟩

theorem bdPssh_local : Cat.bdPssh.cfo.Local ∧ Cat.bdPssh.fields.AllLocal :=
  ⟨cfoPssh_local, by simp [Cat.bdPssh, Cat.fsPssh, Fields.ofList, Ty.AllLocal, Fields.AllLocal, fullBoxTy_local, tyPsshKID_local]⟩

theorem bdTenc_local : Cat.bdTenc.cfo.Local ∧ Cat.bdTenc.fields.AllLocal :=
  ⟨cfoTenc_local, by simp [Cat.bdTenc, Cat.fsTenc, Fields.ofList, Ty.AllLocal, Fields.AllLocal, fullBoxTy_local]⟩

theorem bdIlst_local : Cat.bdIlst.cfo.Local ∧ Cat.bdIlst.fields.AllLocal :=
  ⟨Cfo.base_local, by simp [Cat.bdIlst, Cat.fsIlst, Fields.ofList, Ty.AllLocal, Fields.AllLocal]⟩

theorem bdData_local : Cat.bdData.cfo.Local ∧ Cat.bdData.fields.AllLocal :=
  ⟨Cfo.base_local, by simp [Cat.bdData, Cat.fsData, Fields.ofList, Ty.AllLocal, Fields.AllLocal]⟩

theorem bdIlstMetaContainer_local : Cat.bdIlstMetaContainer.cfo.Local ∧ Cat.bdIlstMetaContainer.fields.AllLocal :=
  ⟨Cfo.base_local, by simp [Cat.bdIlstMetaContainer, Cat.fsIlstMetaContainer, Fields.ofList, Ty.AllLocal, Fields.AllLocal]⟩

theorem bdStringData_local : Cat.bdStringData.cfo.Local ∧ Cat.bdStringData.fields.AllLocal :=
  ⟨Cfo.base_local, by simp [Cat.bdStringData, Cat.fsStringData, Fields.ofList, Ty.AllLocal, Fields.AllLocal]⟩

theorem bdKeys_local : Cat.bdKeys.cfo.Local ∧ Cat.bdKeys.fields.AllLocal :=
  ⟨cfoKeys_local, by simp [Cat.bdKeys, Cat.fsKeys, Fields.ofList, Ty.AllLocal, Fields.AllLocal, fullBoxTy_local, tyKey_local]⟩

theorem bdDOps_local : Cat.bdDOps.cfo.Local ∧ Cat.bdDOps.fields.AllLocal :=
  ⟨cfoDOps_local, by simp [Cat.bdDOps, Cat.fsDOps, Fields.ofList, Ty.AllLocal, Fields.AllLocal]⟩

theorem bdVpcC_local : Cat.bdVpcC.cfo.Local ∧ Cat.bdVpcC.fields.AllLocal :=
  ⟨cfoVpcC_local, by simp [Cat.bdVpcC, Cat.fsVpcC, Fields.ofList, Ty.AllLocal, Fields.AllLocal, fullBoxTy_local]⟩

theorem bdItem_local : Cat.bdItem.cfo.Local ∧ Cat.bdItem.fields.AllLocal :=
  ⟨Cfo.base_local, by simp [Cat.bdItem, Cat.fsItem, Fields.ofList, Ty.AllLocal, Fields.AllLocal, tyData_local]⟩

/-- The methods of every box type look only at the fields listed in `Cfo.deps`. -/
theorem allDefs_local : ∀ bd ∈ Cat.allDefs, bd.cfo.Local ∧ bd.fields.AllLocal := by
  simp only [Cat.allDefs, List.forall_mem_cons]
  exact ⟨bdUdta3GppString_local, bdVisualSampleEntry_local, bdAv1C_local, bdAudioSampleEntry_local, bdDac3_local, bdBtrt_local, bdCo64_local, bdColr_local, bdCslg_local, bdCtts_local, bdDinf_local, bdDref_local, bdUrl_local, bdUrn_local, bdEdts_local, bdElst_local, bdEmsg_local, bdFiel_local, bdFree_local, bdSkip_local, bdFrma_local, bdFtyp_local, bdHdlr_local, bdHvcC_local, bdMdat_local, bdMdhd_local, bdMdia_local, bdMehd_local, bdMeta_local, bdMfhd_local, bdMfra_local, bdMfro_local, bdMinf_local, bdMoof_local, bdMoov_local, bdMvex_local, bdMvhd_local, bdSaio_local, bdSaiz_local, bdAVCDecoderConfiguration_local, bdPixelAspectRatioBox_local, bdXMLSubtitleSampleEntry_local, bdTextSubtitleSampleEntry_local, bdSbgp_local, bdSchi_local, bdSchm_local, bdSdtp_local, bdSgpd_local, bdSidx_local, bdSinf_local, bdSmhd_local, bdStbl_local, bdStco_local, bdStsc_local, bdStsd_local, bdStss_local, bdStsz_local, bdStts_local, bdStyp_local, bdTfdt_local, bdTfhd_local, bdTfra_local, bdTkhd_local, bdTraf_local, bdTrak_local, bdTrep_local, bdTrex_local, bdTrun_local, bdUdta_local, bdVmhd_local, bdWave_local, bdEsds_local, bdWebVTTConfigurationBox_local, bdWebVTTSourceLabelBox_local, bdWVTTSampleEntry_local, bdVTTCueBox_local, bdCueSourceIDBox_local, bdCueTimeBox_local, bdCueIDBox_local, bdCueSettingsBox_local, bdCuePayloadBox_local, bdVTTEmptyCueBox_local, bdVTTAdditionalTextBox_local, bdPcmC_local, bdPssh_local, bdTenc_local, bdIlst_local, bdData_local, bdIlstMetaContainer_local, bdStringData_local, bdKeys_local, bdDOps_local, bdVpcC_local, bdItem_local, by simp⟩

/-- Every box type can be decoded field by field. -/
theorem allDefs_ok : ∀ bd ∈ Cat.allDefs, bd.ok = true := by
  have h : Cat.allDefs.all BoxDef.ok = true := by decide
  exact List.all_eq_true.mp h

end Mp4
