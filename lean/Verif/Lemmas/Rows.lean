import Verif.Lemmas.Lists

/-!
# The table of counted lists agrees with the methods of the box types

Written by a script; the statements repeat the rows of `Spec.countedLists`.
-/

set_option linter.unusedSimpArgs false

namespace Mp4

open Spec

theorem row_byte {e : Env} {fi : Field} {x : Val} (hx : typedV (.uint 8) x = true) (hv : fi.varint = false)
    (hs : fi.size = 8) : 1 ≤ (layoutV e (.uint 8) fi x).length := by
  obtain ⟨k, rfl, _⟩ := typedV_uint_inv hx
  simp [layoutV, hv, hs, natBits_length]

theorem row_key {ctx : Ctx} {sv : SV} {fi : Field} {x : Val} (hx : typedV Cat.tyKey x = true) :
    1 ≤ (layoutV (env Cat.bdKeys ctx sv) Cat.tyKey fi x).length := by
  cases x <;> simp only [Cat.tyKey, typedV] at hx <;> try contradiction
  next s =>
  have hm : (({ name := "KeySize", size := 32 } : Field), Ty.int 32) ∈ Cat.fsKey.toList := by
    simp [Cat.fsKey, Fields.ofList, Fields.toList]
  obtain ⟨v, hv, ht⟩ := typed_get (Fields.nodup_names Cat.fsKey (by decide)) hx hm
  have := layoutFields_mem (e := env Cat.bdKeys ctx sv) (top := false) (c := some cfoKey) rfl hm
    (by simp [there, instField, present, env, anyVersion]) hv
  simp only [Cat.tyKey, layoutV]
  cases v <;> simp only [typedV] at ht <;> try contradiction
  simp only [layoutV, natBits_length, tagOf, instField] at this
  simp at this
  omega

/-- Co64.ChunkOffset -/
theorem row0 : RowFacts Cat.bdCo64 { box := "Co64", list := "ChunkOffset", count := "EntryCount" } := by
  intro ctx sv
  refine ⟨(some cfoCo64), Cat.fsCo64, { name := "ChunkOffset", size := 64, lenDyn := true }, (.uint 64),
      (.nil (c := (some cfoCo64)) (fs := Cat.fsCo64) (Fields.nodup_names Cat.fsCo64 (by decide))),
      (by simp [Cat.fsCo64, Fields.ofList, Fields.toList]), rfl, ?_⟩
  intro sub hs hty ho
  have hs' := hs rfl; subst hs'
  have kc := number_uint (g := { name := "EntryCount", size := 32 }) (w := 32) (Fields.nodup_names Cat.fsCo64 (by decide)) hty (by simp [Cat.fsCo64, Fields.ofList, Fields.toList])
  simp only at kc
  refine ⟨?_, Or.inl ?_⟩
  · simp [there, instField, present, env, anyVersion, groupedBy, ownLengths, Cfo.counted, Cfo.counted0, cfoCo64] at ho ⊢
    try simp_all [groupedBy, ownLengths, ascii, sgpdLists, avccOptNames]
    try omega
  · rw [kc]
    simp [tagOf, instField, env, Cfo.counted, Cfo.counted0, cfoCo64] at ho ⊢
    try simp_all [groupedBy, ownLengths, ascii, sgpdLists, avccOptNames]
    try omega

/-- Ctts.Entries -/
theorem row1 : RowFacts Cat.bdCtts { box := "Ctts", list := "Entries", count := "EntryCount" } := by
  intro ctx sv
  refine ⟨(some cfoCtts), Cat.fsCtts, { name := "Entries", lenDyn := true, size := 64 }, Cat.tyCttsEntry,
      (.nil (c := (some cfoCtts)) (fs := Cat.fsCtts) (Fields.nodup_names Cat.fsCtts (by decide))),
      (by simp [Cat.fsCtts, Fields.ofList, Fields.toList]), rfl, ?_⟩
  intro sub hs hty ho
  have hs' := hs rfl; subst hs'
  have kc := number_uint (g := { name := "EntryCount", size := 32 }) (w := 32) (Fields.nodup_names Cat.fsCtts (by decide)) hty (by simp [Cat.fsCtts, Fields.ofList, Fields.toList])
  simp only at kc
  refine ⟨?_, Or.inl ?_⟩
  · simp [there, instField, present, env, anyVersion, groupedBy, ownLengths, Cfo.counted, Cfo.counted0, cfoCtts] at ho ⊢
    try simp_all [groupedBy, ownLengths, ascii, sgpdLists, avccOptNames]
    try omega
  · rw [kc]
    simp [tagOf, instField, env, Cfo.counted, Cfo.counted0, cfoCtts] at ho ⊢
    try simp_all [groupedBy, ownLengths, ascii, sgpdLists, avccOptNames]
    try omega

/-- Elst.Entries -/
theorem row2 : RowFacts Cat.bdElst { box := "Elst", list := "Entries", count := "EntryCount" } := by
  intro ctx sv
  refine ⟨(some cfoElst), Cat.fsElst, { name := "Entries", lenDyn := true, sizeDyn := true }, Cat.tyElstEntry,
      (.nil (c := (some cfoElst)) (fs := Cat.fsElst) (Fields.nodup_names Cat.fsElst (by decide))),
      (by simp [Cat.fsElst, Fields.ofList, Fields.toList]), rfl, ?_⟩
  intro sub hs hty ho
  have hs' := hs rfl; subst hs'
  have kc := number_uint (g := { name := "EntryCount", size := 32 }) (w := 32) (Fields.nodup_names Cat.fsElst (by decide)) hty (by simp [Cat.fsElst, Fields.ofList, Fields.toList])
  simp only at kc
  refine ⟨?_, Or.inl ?_⟩
  · simp [there, instField, present, env, anyVersion, groupedBy, ownLengths, Cfo.counted, Cfo.counted0, cfoElst] at ho ⊢
    try simp_all [groupedBy, ownLengths, ascii, sgpdLists, avccOptNames]
    try omega
  · rw [kc]
    simp [tagOf, instField, env, Cfo.counted, Cfo.counted0, cfoElst] at ho ⊢
    try simp_all [groupedBy, ownLengths, ascii, sgpdLists, avccOptNames]
    try omega

/-- Saio.OffsetV0 -/
theorem row3 : RowFacts Cat.bdSaio { box := "Saio", list := "OffsetV0", count := "EntryCount", only := fun sv => sv.version == 0 } := by
  intro ctx sv
  refine ⟨(some cfoSaio), Cat.fsSaio, { name := "OffsetV0", size := 32, version := 0, lenDyn := true }, (.uint 32),
      (.nil (c := (some cfoSaio)) (fs := Cat.fsSaio) (Fields.nodup_names Cat.fsSaio (by decide))),
      (by simp [Cat.fsSaio, Fields.ofList, Fields.toList]), rfl, ?_⟩
  intro sub hs hty ho
  have hs' := hs rfl; subst hs'
  have kc := number_uint (g := { name := "EntryCount", size := 32 }) (w := 32) (Fields.nodup_names Cat.fsSaio (by decide)) hty (by simp [Cat.fsSaio, Fields.ofList, Fields.toList])
  simp only at kc
  refine ⟨?_, Or.inl ?_⟩
  · simp [there, instField, present, env, anyVersion, groupedBy, ownLengths, Cfo.counted, Cfo.counted0, cfoSaio] at ho ⊢
    try simp_all [groupedBy, ownLengths, ascii, sgpdLists, avccOptNames]
    try omega
  · rw [kc]
    simp [tagOf, instField, env, Cfo.counted, Cfo.counted0, cfoSaio] at ho ⊢
    try simp_all [groupedBy, ownLengths, ascii, sgpdLists, avccOptNames]
    try omega

/-- Saio.OffsetV1 -/
theorem row4 : RowFacts Cat.bdSaio { box := "Saio", list := "OffsetV1", count := "EntryCount", only := fun sv => sv.version != 0 } := by
  intro ctx sv
  refine ⟨(some cfoSaio), Cat.fsSaio, { name := "OffsetV1", size := 64, nVersion := 0, lenDyn := true }, (.uint 64),
      (.nil (c := (some cfoSaio)) (fs := Cat.fsSaio) (Fields.nodup_names Cat.fsSaio (by decide))),
      (by simp [Cat.fsSaio, Fields.ofList, Fields.toList]), rfl, ?_⟩
  intro sub hs hty ho
  have hs' := hs rfl; subst hs'
  have kc := number_uint (g := { name := "EntryCount", size := 32 }) (w := 32) (Fields.nodup_names Cat.fsSaio (by decide)) hty (by simp [Cat.fsSaio, Fields.ofList, Fields.toList])
  simp only at kc
  refine ⟨?_, Or.inl ?_⟩
  · simp [there, instField, present, env, anyVersion, groupedBy, ownLengths, Cfo.counted, Cfo.counted0, cfoSaio] at ho ⊢
    try simp_all [groupedBy, ownLengths, ascii, sgpdLists, avccOptNames]
    try omega
  · rw [kc]
    simp [tagOf, instField, env, Cfo.counted, Cfo.counted0, cfoSaio] at ho ⊢
    try simp_all [groupedBy, ownLengths, ascii, sgpdLists, avccOptNames]
    try omega

/-- Saiz.SampleInfoSize -/
theorem row5 : RowFacts Cat.bdSaiz { box := "Saiz", list := "SampleInfoSize", count := "SampleCount", only := fun sv => number sv "DefaultSampleInfoSize" == 0 } := by
  intro ctx sv
  refine ⟨(some cfoSaiz), Cat.fsSaiz, { name := "SampleInfoSize", size := 8, optDyn := true, lenDyn := true, dec := true }, (.uint 8),
      (.nil (c := (some cfoSaiz)) (fs := Cat.fsSaiz) (Fields.nodup_names Cat.fsSaiz (by decide))),
      (by simp [Cat.fsSaiz, Fields.ofList, Fields.toList]), rfl, ?_⟩
  intro sub hs hty ho
  have hs' := hs rfl; subst hs'
  have k0 := number_uint (g := { name := "DefaultSampleInfoSize", size := 8, dec := true }) (w := 8) (Fields.nodup_names Cat.fsSaiz (by decide)) hty (by simp [Cat.fsSaiz, Fields.ofList, Fields.toList])
  simp only at k0
  have kc := number_uint (g := { name := "SampleCount", size := 32 }) (w := 32) (Fields.nodup_names Cat.fsSaiz (by decide)) hty (by simp [Cat.fsSaiz, Fields.ofList, Fields.toList])
  simp only at kc
  refine ⟨?_, Or.inl ?_⟩
  · simp [there, instField, present, env, anyVersion, groupedBy, ownLengths, Cfo.counted, Cfo.counted0, cfoSaiz, k0] at ho ⊢
    try simp_all [groupedBy, ownLengths, ascii, sgpdLists, avccOptNames]
    try omega
  · rw [kc]
    simp [tagOf, instField, env, Cfo.counted, Cfo.counted0, cfoSaiz, k0] at ho ⊢
    try simp_all [groupedBy, ownLengths, ascii, sgpdLists, avccOptNames]
    try omega

/-- Sbgp.Entries -/
theorem row6 : RowFacts Cat.bdSbgp { box := "Sbgp", list := "Entries", count := "EntryCount" } := by
  intro ctx sv
  refine ⟨(some cfoSbgp), Cat.fsSbgp, { name := "Entries", lenDyn := true, size := 64 }, Cat.tySbgpEntry,
      (.nil (c := (some cfoSbgp)) (fs := Cat.fsSbgp) (Fields.nodup_names Cat.fsSbgp (by decide))),
      (by simp [Cat.fsSbgp, Fields.ofList, Fields.toList]), rfl, ?_⟩
  intro sub hs hty ho
  have hs' := hs rfl; subst hs'
  have kc := number_uint (g := { name := "EntryCount", size := 32 }) (w := 32) (Fields.nodup_names Cat.fsSbgp (by decide)) hty (by simp [Cat.fsSbgp, Fields.ofList, Fields.toList])
  simp only at kc
  refine ⟨?_, Or.inl ?_⟩
  · simp [there, instField, present, env, anyVersion, groupedBy, ownLengths, Cfo.counted, Cfo.counted0, cfoSbgp] at ho ⊢
    try simp_all [groupedBy, ownLengths, ascii, sgpdLists, avccOptNames]
    try omega
  · rw [kc]
    simp [tagOf, instField, env, Cfo.counted, Cfo.counted0, cfoSbgp] at ho ⊢
    try simp_all [groupedBy, ownLengths, ascii, sgpdLists, avccOptNames]
    try omega

/-- Sidx.References -/
theorem row7 : RowFacts Cat.bdSidx { box := "Sidx", list := "References", count := "ReferenceCount" } := by
  intro ctx sv
  refine ⟨(some cfoSidx), Cat.fsSidx, { name := "References", size := 96, lenDyn := true }, Cat.tySidxReference,
      (.nil (c := (some cfoSidx)) (fs := Cat.fsSidx) (Fields.nodup_names Cat.fsSidx (by decide))),
      (by simp [Cat.fsSidx, Fields.ofList, Fields.toList]), rfl, ?_⟩
  intro sub hs hty ho
  have hs' := hs rfl; subst hs'
  have kc := number_uint (g := { name := "ReferenceCount", size := 16 }) (w := 16) (Fields.nodup_names Cat.fsSidx (by decide)) hty (by simp [Cat.fsSidx, Fields.ofList, Fields.toList])
  simp only at kc
  refine ⟨?_, Or.inl ?_⟩
  · simp [there, instField, present, env, anyVersion, groupedBy, ownLengths, Cfo.counted, Cfo.counted0, cfoSidx] at ho ⊢
    try simp_all [groupedBy, ownLengths, ascii, sgpdLists, avccOptNames]
    try omega
  · rw [kc]
    simp [tagOf, instField, env, Cfo.counted, Cfo.counted0, cfoSidx] at ho ⊢
    try simp_all [groupedBy, ownLengths, ascii, sgpdLists, avccOptNames]
    try omega

/-- Stco.ChunkOffset -/
theorem row8 : RowFacts Cat.bdStco { box := "Stco", list := "ChunkOffset", count := "EntryCount" } := by
  intro ctx sv
  refine ⟨(some cfoStco), Cat.fsStco, { name := "ChunkOffset", size := 32, lenDyn := true }, (.uint 32),
      (.nil (c := (some cfoStco)) (fs := Cat.fsStco) (Fields.nodup_names Cat.fsStco (by decide))),
      (by simp [Cat.fsStco, Fields.ofList, Fields.toList]), rfl, ?_⟩
  intro sub hs hty ho
  have hs' := hs rfl; subst hs'
  have kc := number_uint (g := { name := "EntryCount", size := 32 }) (w := 32) (Fields.nodup_names Cat.fsStco (by decide)) hty (by simp [Cat.fsStco, Fields.ofList, Fields.toList])
  simp only at kc
  refine ⟨?_, Or.inl ?_⟩
  · simp [there, instField, present, env, anyVersion, groupedBy, ownLengths, Cfo.counted, Cfo.counted0, cfoStco] at ho ⊢
    try simp_all [groupedBy, ownLengths, ascii, sgpdLists, avccOptNames]
    try omega
  · rw [kc]
    simp [tagOf, instField, env, Cfo.counted, Cfo.counted0, cfoStco] at ho ⊢
    try simp_all [groupedBy, ownLengths, ascii, sgpdLists, avccOptNames]
    try omega

/-- Stsc.Entries -/
theorem row9 : RowFacts Cat.bdStsc { box := "Stsc", list := "Entries", count := "EntryCount" } := by
  intro ctx sv
  refine ⟨(some cfoStsc), Cat.fsStsc, { name := "Entries", lenDyn := true, size := 96 }, Cat.tyStscEntry,
      (.nil (c := (some cfoStsc)) (fs := Cat.fsStsc) (Fields.nodup_names Cat.fsStsc (by decide))),
      (by simp [Cat.fsStsc, Fields.ofList, Fields.toList]), rfl, ?_⟩
  intro sub hs hty ho
  have hs' := hs rfl; subst hs'
  have kc := number_uint (g := { name := "EntryCount", size := 32 }) (w := 32) (Fields.nodup_names Cat.fsStsc (by decide)) hty (by simp [Cat.fsStsc, Fields.ofList, Fields.toList])
  simp only at kc
  refine ⟨?_, Or.inl ?_⟩
  · simp [there, instField, present, env, anyVersion, groupedBy, ownLengths, Cfo.counted, Cfo.counted0, cfoStsc] at ho ⊢
    try simp_all [groupedBy, ownLengths, ascii, sgpdLists, avccOptNames]
    try omega
  · rw [kc]
    simp [tagOf, instField, env, Cfo.counted, Cfo.counted0, cfoStsc] at ho ⊢
    try simp_all [groupedBy, ownLengths, ascii, sgpdLists, avccOptNames]
    try omega

/-- Stss.SampleNumber -/
theorem row10 : RowFacts Cat.bdStss { box := "Stss", list := "SampleNumber", count := "EntryCount" } := by
  intro ctx sv
  refine ⟨(some cfoStss), Cat.fsStss, { name := "SampleNumber", lenDyn := true, size := 32 }, (.uint 32),
      (.nil (c := (some cfoStss)) (fs := Cat.fsStss) (Fields.nodup_names Cat.fsStss (by decide))),
      (by simp [Cat.fsStss, Fields.ofList, Fields.toList]), rfl, ?_⟩
  intro sub hs hty ho
  have hs' := hs rfl; subst hs'
  have kc := number_uint (g := { name := "EntryCount", size := 32 }) (w := 32) (Fields.nodup_names Cat.fsStss (by decide)) hty (by simp [Cat.fsStss, Fields.ofList, Fields.toList])
  simp only at kc
  refine ⟨?_, Or.inl ?_⟩
  · simp [there, instField, present, env, anyVersion, groupedBy, ownLengths, Cfo.counted, Cfo.counted0, cfoStss] at ho ⊢
    try simp_all [groupedBy, ownLengths, ascii, sgpdLists, avccOptNames]
    try omega
  · rw [kc]
    simp [tagOf, instField, env, Cfo.counted, Cfo.counted0, cfoStss] at ho ⊢
    try simp_all [groupedBy, ownLengths, ascii, sgpdLists, avccOptNames]
    try omega

/-- Stsz.EntrySize -/
theorem row11 : RowFacts Cat.bdStsz { box := "Stsz", list := "EntrySize", count := "SampleCount", only := fun sv => number sv "SampleSize" == 0 } := by
  intro ctx sv
  refine ⟨(some cfoStsz), Cat.fsStsz, { name := "EntrySize", size := 32, lenDyn := true }, (.uint 32),
      (.nil (c := (some cfoStsz)) (fs := Cat.fsStsz) (Fields.nodup_names Cat.fsStsz (by decide))),
      (by simp [Cat.fsStsz, Fields.ofList, Fields.toList]), rfl, ?_⟩
  intro sub hs hty ho
  have hs' := hs rfl; subst hs'
  have k0 := number_uint (g := { name := "SampleSize", size := 32 }) (w := 32) (Fields.nodup_names Cat.fsStsz (by decide)) hty (by simp [Cat.fsStsz, Fields.ofList, Fields.toList])
  simp only at k0
  have kc := number_uint (g := { name := "SampleCount", size := 32 }) (w := 32) (Fields.nodup_names Cat.fsStsz (by decide)) hty (by simp [Cat.fsStsz, Fields.ofList, Fields.toList])
  simp only at kc
  refine ⟨?_, Or.inl ?_⟩
  · simp [there, instField, present, env, anyVersion, groupedBy, ownLengths, Cfo.counted, Cfo.counted0, cfoStsz, k0] at ho ⊢
    try simp_all [groupedBy, ownLengths, ascii, sgpdLists, avccOptNames]
    try omega
  · rw [kc]
    simp [tagOf, instField, env, Cfo.counted, Cfo.counted0, cfoStsz, k0] at ho ⊢
    try simp_all [groupedBy, ownLengths, ascii, sgpdLists, avccOptNames]
    try omega

/-- Stts.Entries -/
theorem row12 : RowFacts Cat.bdStts { box := "Stts", list := "Entries", count := "EntryCount" } := by
  intro ctx sv
  refine ⟨(some cfoStts), Cat.fsStts, { name := "Entries", lenDyn := true, size := 64 }, Cat.tySttsEntry,
      (.nil (c := (some cfoStts)) (fs := Cat.fsStts) (Fields.nodup_names Cat.fsStts (by decide))),
      (by simp [Cat.fsStts, Fields.ofList, Fields.toList]), rfl, ?_⟩
  intro sub hs hty ho
  have hs' := hs rfl; subst hs'
  have kc := number_uint (g := { name := "EntryCount", size := 32 }) (w := 32) (Fields.nodup_names Cat.fsStts (by decide)) hty (by simp [Cat.fsStts, Fields.ofList, Fields.toList])
  simp only at kc
  refine ⟨?_, Or.inl ?_⟩
  · simp [there, instField, present, env, anyVersion, groupedBy, ownLengths, Cfo.counted, Cfo.counted0, cfoStts] at ho ⊢
    try simp_all [groupedBy, ownLengths, ascii, sgpdLists, avccOptNames]
    try omega
  · rw [kc]
    simp [tagOf, instField, env, Cfo.counted, Cfo.counted0, cfoStts] at ho ⊢
    try simp_all [groupedBy, ownLengths, ascii, sgpdLists, avccOptNames]
    try omega

/-- Tfra.Entries -/
theorem row13 : RowFacts Cat.bdTfra { box := "Tfra", list := "Entries", count := "NumberOfEntry" } := by
  intro ctx sv
  refine ⟨(some cfoTfra), Cat.fsTfra, { name := "Entries", lenDyn := true, sizeDyn := true }, Cat.tyTfraEntry,
      (.nil (c := (some cfoTfra)) (fs := Cat.fsTfra) (Fields.nodup_names Cat.fsTfra (by decide))),
      (by simp [Cat.fsTfra, Fields.ofList, Fields.toList]), rfl, ?_⟩
  intro sub hs hty ho
  have hs' := hs rfl; subst hs'
  have kc := number_uint (g := { name := "NumberOfEntry", size := 32 }) (w := 32) (Fields.nodup_names Cat.fsTfra (by decide)) hty (by simp [Cat.fsTfra, Fields.ofList, Fields.toList])
  simp only at kc
  refine ⟨?_, Or.inl ?_⟩
  · simp [there, instField, present, env, anyVersion, groupedBy, ownLengths, Cfo.counted, Cfo.counted0, cfoTfra] at ho ⊢
    try simp_all [groupedBy, ownLengths, ascii, sgpdLists, avccOptNames]
    try omega
  · rw [kc]
    simp [tagOf, instField, env, Cfo.counted, Cfo.counted0, cfoTfra] at ho ⊢
    try simp_all [groupedBy, ownLengths, ascii, sgpdLists, avccOptNames]
    try omega

/-- Trun.Entries -/
theorem row14 : RowFacts Cat.bdTrun { box := "Trun", list := "Entries", count := "SampleCount" } := by
  intro ctx sv
  refine ⟨(some cfoTrun), Cat.fsTrun, { name := "Entries", lenDyn := true, sizeDyn := true }, Cat.tyTrunEntry,
      (.nil (c := (some cfoTrun)) (fs := Cat.fsTrun) (Fields.nodup_names Cat.fsTrun (by decide))),
      (by simp [Cat.fsTrun, Fields.ofList, Fields.toList]), rfl, ?_⟩
  intro sub hs hty ho
  have hs' := hs rfl; subst hs'
  have kc := number_uint (g := { name := "SampleCount", size := 32 }) (w := 32) (Fields.nodup_names Cat.fsTrun (by decide)) hty (by simp [Cat.fsTrun, Fields.ofList, Fields.toList])
  simp only at kc
  refine ⟨?_, Or.inl ?_⟩
  · simp [there, instField, present, env, anyVersion, groupedBy, ownLengths, Cfo.counted, Cfo.counted0, cfoTrun] at ho ⊢
    try simp_all [groupedBy, ownLengths, ascii, sgpdLists, avccOptNames]
    try omega
  · rw [kc]
    simp [tagOf, instField, env, Cfo.counted, Cfo.counted0, cfoTrun] at ho ⊢
    try simp_all [groupedBy, ownLengths, ascii, sgpdLists, avccOptNames]
    try omega

/-- Pssh.KIDs -/
theorem row15 : RowFacts Cat.bdPssh { box := "Pssh", list := "KIDs", count := "KIDCount", only := fun sv => sv.version != 0 } := by
  intro ctx sv
  refine ⟨(some cfoPssh), Cat.fsPssh, { name := "KIDs", nVersion := 0, lenDyn := true, size := 128 }, Cat.tyPsshKID,
      (.nil (c := (some cfoPssh)) (fs := Cat.fsPssh) (Fields.nodup_names Cat.fsPssh (by decide))),
      (by simp [Cat.fsPssh, Fields.ofList, Fields.toList]), rfl, ?_⟩
  intro sub hs hty ho
  have hs' := hs rfl; subst hs'
  have kc := number_uint (g := { name := "KIDCount", size := 32, nVersion := 0 }) (w := 32) (Fields.nodup_names Cat.fsPssh (by decide)) hty (by simp [Cat.fsPssh, Fields.ofList, Fields.toList])
  simp only at kc
  refine ⟨?_, Or.inl ?_⟩
  · simp [there, instField, present, env, anyVersion, groupedBy, ownLengths, Cfo.counted, Cfo.counted0, cfoPssh] at ho ⊢
    try simp_all [groupedBy, ownLengths, ascii, sgpdLists, avccOptNames]
    try omega
  · rw [kc]
    simp [tagOf, instField, env, Cfo.counted, Cfo.counted0, cfoPssh] at ho ⊢
    try simp_all [groupedBy, ownLengths, ascii, sgpdLists, avccOptNames]
    try omega

/-- Pssh.Data -/
theorem row16 : RowFacts Cat.bdPssh { box := "Pssh", list := "Data", count := "DataSize" } := by
  intro ctx sv
  refine ⟨(some cfoPssh), Cat.fsPssh, { name := "Data", size := 8, lenDyn := true }, (.uint 8),
      (.nil (c := (some cfoPssh)) (fs := Cat.fsPssh) (Fields.nodup_names Cat.fsPssh (by decide))),
      (by simp [Cat.fsPssh, Fields.ofList, Fields.toList]), rfl, ?_⟩
  intro sub hs hty ho
  have hs' := hs rfl; subst hs'
  obtain ⟨kc, kl, ku⟩ := number_int (g := { name := "DataSize", size := 32 }) (w := 32) (Fields.nodup_names Cat.fsPssh (by decide)) hty (by simp [Cat.fsPssh, Fields.ofList, Fields.toList])
  simp only at kc kl ku
  refine ⟨by simp [there, instField, present, env, anyVersion], Or.inr ⟨rfl, by decide +kernel, by decide, rfl, ?_, ?_⟩⟩
  · intro x hx
    exact row_byte hx rfl rfl
  · rw [kc]
    simp [tagOf, instField, env, Cfo.counted, Cfo.counted0, cfoPssh, uintOfInt, sub64, U64]
    simp at kl ku
    omega

/-- Tenc.DefaultConstantIV -/
theorem row17 : RowFacts Cat.bdTenc { box := "Tenc", list := "DefaultConstantIV", count := "DefaultConstantIVSize", only := fun sv => number sv "DefaultIsProtected" == 1 && number sv "DefaultPerSampleIVSize" == 0 } := by
  intro ctx sv
  refine ⟨(some cfoTenc), Cat.fsTenc, { name := "DefaultConstantIV", size := 8, optDyn := true, lenDyn := true }, (.uint 8),
      (.nil (c := (some cfoTenc)) (fs := Cat.fsTenc) (Fields.nodup_names Cat.fsTenc (by decide))),
      (by simp [Cat.fsTenc, Fields.ofList, Fields.toList]), rfl, ?_⟩
  intro sub hs hty ho
  have hs' := hs rfl; subst hs'
  have k0 := number_uint (g := { name := "DefaultIsProtected", size := 8, dec := true }) (w := 8) (Fields.nodup_names Cat.fsTenc (by decide)) hty (by simp [Cat.fsTenc, Fields.ofList, Fields.toList])
  simp only at k0
  have k1 := number_uint (g := { name := "DefaultPerSampleIVSize", size := 8, dec := true }) (w := 8) (Fields.nodup_names Cat.fsTenc (by decide)) hty (by simp [Cat.fsTenc, Fields.ofList, Fields.toList])
  simp only at k1
  have kc := number_uint (g := { name := "DefaultConstantIVSize", size := 8, optDyn := true, dec := true }) (w := 8) (Fields.nodup_names Cat.fsTenc (by decide)) hty (by simp [Cat.fsTenc, Fields.ofList, Fields.toList])
  simp only at kc
  refine ⟨?_, Or.inl ?_⟩
  · simp [there, instField, present, env, anyVersion, groupedBy, ownLengths, Cfo.counted, Cfo.counted0, cfoTenc, k0, k1] at ho ⊢
    try simp_all [groupedBy, ownLengths, ascii, sgpdLists, avccOptNames]
    try omega
  · rw [kc]
    simp [tagOf, instField, env, Cfo.counted, Cfo.counted0, cfoTenc, k0, k1] at ho ⊢
    try simp_all [groupedBy, ownLengths, ascii, sgpdLists, avccOptNames]
    try omega

/-- Keys.Entries -/
theorem row18 : RowFacts Cat.bdKeys { box := "Keys", list := "Entries", count := "EntryCount" } := by
  intro ctx sv
  refine ⟨(some cfoKeys), Cat.fsKeys, { name := "Entries", lenDyn := true }, Cat.tyKey,
      (.nil (c := (some cfoKeys)) (fs := Cat.fsKeys) (Fields.nodup_names Cat.fsKeys (by decide))),
      (by simp [Cat.fsKeys, Fields.ofList, Fields.toList]), rfl, ?_⟩
  intro sub hs hty ho
  have hs' := hs rfl; subst hs'
  obtain ⟨kc, kl, ku⟩ := number_int (g := { name := "EntryCount", size := 32 }) (w := 32) (Fields.nodup_names Cat.fsKeys (by decide)) hty (by simp [Cat.fsKeys, Fields.ofList, Fields.toList])
  simp only at kc kl ku
  refine ⟨by simp [there, instField, present, env, anyVersion], Or.inr ⟨rfl, by decide +kernel, by decide, rfl, ?_, ?_⟩⟩
  · intro x hx
    exact row_key hx
  · rw [kc]
    simp [tagOf, instField, env, Cfo.counted, Cfo.counted0, cfoKeys, uintOfInt, sub64, U64]
    simp at kl ku
    omega

/-- DOps.ChannelMapping -/
theorem row20 : RowFacts Cat.bdDOps { box := "DOps", list := "ChannelMapping", count := "OutputChannelCount", only := fun sv => number sv "ChannelMappingFamily" != 0 } := by
  intro ctx sv
  refine ⟨(some cfoDOps), Cat.fsDOps, { name := "ChannelMapping", optDyn := true, size := 8, lenDyn := true }, (.uint 8),
      (.nil (c := (some cfoDOps)) (fs := Cat.fsDOps) (Fields.nodup_names Cat.fsDOps (by decide))),
      (by simp [Cat.fsDOps, Fields.ofList, Fields.toList]), rfl, ?_⟩
  intro sub hs hty ho
  have hs' := hs rfl; subst hs'
  have k0 := number_uint (g := { name := "ChannelMappingFamily", size := 8 }) (w := 8) (Fields.nodup_names Cat.fsDOps (by decide)) hty (by simp [Cat.fsDOps, Fields.ofList, Fields.toList])
  simp only at k0
  have kc := number_uint (g := { name := "OutputChannelCount", size := 8 }) (w := 8) (Fields.nodup_names Cat.fsDOps (by decide)) hty (by simp [Cat.fsDOps, Fields.ofList, Fields.toList])
  simp only at kc
  refine ⟨?_, Or.inl ?_⟩
  · simp [there, instField, present, env, anyVersion, groupedBy, ownLengths, Cfo.counted, Cfo.counted0, cfoDOps, k0] at ho ⊢
    try simp_all [groupedBy, ownLengths, ascii, sgpdLists, avccOptNames]
    try omega
  · rw [kc]
    simp [tagOf, instField, env, Cfo.counted, Cfo.counted0, cfoDOps, k0] at ho ⊢
    try simp_all [groupedBy, ownLengths, ascii, sgpdLists, avccOptNames]
    try omega

/-- VpcC.CodecInitializationData -/
theorem row21 : RowFacts Cat.bdVpcC { box := "VpcC", list := "CodecInitializationData", count := "CodecInitializationDataSize" } := by
  intro ctx sv
  refine ⟨(some cfoVpcC), Cat.fsVpcC, { name := "CodecInitializationData", size := 8, lenDyn := true }, (.uint 8),
      (.nil (c := (some cfoVpcC)) (fs := Cat.fsVpcC) (Fields.nodup_names Cat.fsVpcC (by decide))),
      (by simp [Cat.fsVpcC, Fields.ofList, Fields.toList]), rfl, ?_⟩
  intro sub hs hty ho
  have hs' := hs rfl; subst hs'
  have kc := number_uint (g := { name := "CodecInitializationDataSize", size := 16 }) (w := 16) (Fields.nodup_names Cat.fsVpcC (by decide)) hty (by simp [Cat.fsVpcC, Fields.ofList, Fields.toList])
  simp only at kc
  refine ⟨?_, Or.inl ?_⟩
  · simp [there, instField, present, env, anyVersion, groupedBy, ownLengths, Cfo.counted, Cfo.counted0, cfoVpcC] at ho ⊢
    try simp_all [groupedBy, ownLengths, ascii, sgpdLists, avccOptNames]
    try omega
  · rw [kc]
    simp [tagOf, instField, env, Cfo.counted, Cfo.counted0, cfoVpcC] at ho ⊢
    try simp_all [groupedBy, ownLengths, ascii, sgpdLists, avccOptNames]
    try omega

/-- HvcC.NaluArrays -/
theorem row22 : RowFacts Cat.bdHvcC { box := "HvcC", list := "NaluArrays", count := "NumOfNaluArrays" } := by
  intro ctx sv
  refine ⟨(some cfoHvcC), Cat.fsHvcC, { name := "NaluArrays", lenDyn := true }, Cat.tyHEVCNaluArray,
      (.nil (c := (some cfoHvcC)) (fs := Cat.fsHvcC) (Fields.nodup_names Cat.fsHvcC (by decide))),
      (by simp [Cat.fsHvcC, Fields.ofList, Fields.toList]), rfl, ?_⟩
  intro sub hs hty ho
  have hs' := hs rfl; subst hs'
  have kc := number_uint (g := { name := "NumOfNaluArrays", size := 8 }) (w := 8) (Fields.nodup_names Cat.fsHvcC (by decide)) hty (by simp [Cat.fsHvcC, Fields.ofList, Fields.toList])
  simp only at kc
  refine ⟨?_, Or.inl ?_⟩
  · simp [there, instField, present, env, anyVersion, groupedBy, ownLengths, Cfo.counted, Cfo.counted0, cfoHvcC] at ho ⊢
    try simp_all [groupedBy, ownLengths, ascii, sgpdLists, avccOptNames]
    try omega
  · rw [kc]
    simp [tagOf, instField, env, Cfo.counted, Cfo.counted0, cfoHvcC] at ho ⊢
    try simp_all [groupedBy, ownLengths, ascii, sgpdLists, avccOptNames]
    try omega

/-- HvcC.NaluArrays.Nalus -/
theorem row23 : RowFacts Cat.bdHvcC { box := "HvcC", path := [("NaluArrays", fun _ => true)], list := "Nalus", count := "NumNalus" } := by
  intro ctx sv
  refine ⟨(some cfoHEVCNaluArray), Cat.fsHEVCNaluArray, { name := "Nalus", lenDyn := true }, Cat.tyHEVCNalu,
      (.cons (c := (some cfoHvcC)) (fs := Cat.fsHvcC) (f := { name := "NaluArrays", lenDyn := true }) (t := (.slice Cat.tyHEVCNaluArray)) (Fields.nodup_names Cat.fsHvcC (by decide)) (by simp [Cat.fsHvcC, Fields.ofList, Fields.toList]) rfl (by intro sv' hroot hty h; have hroot' := hroot rfl; subst hroot'; simp [there, instField, present, env, anyVersion, groupedBy, ownLengths, Cfo.counted, Cfo.counted0, cfoHvcC, cfoHEVCNaluArray] at *; try simp_all [groupedBy, ownLengths, ascii, sgpdLists, avccOptNames]; try omega)
      (.nil (c := (some cfoHEVCNaluArray)) (fs := Cat.fsHEVCNaluArray) (Fields.nodup_names Cat.fsHEVCNaluArray (by decide)))),
      (by simp [Cat.fsHEVCNaluArray, Fields.ofList, Fields.toList]), rfl, ?_⟩
  intro sub hs hty ho
  have kc := number_uint (g := { name := "NumNalus", size := 16 }) (w := 16) (Fields.nodup_names Cat.fsHEVCNaluArray (by decide)) hty (by simp [Cat.fsHEVCNaluArray, Fields.ofList, Fields.toList])
  simp only at kc
  refine ⟨?_, Or.inl ?_⟩
  · simp [there, instField, present, env, anyVersion, groupedBy, ownLengths, Cfo.counted, Cfo.counted0, cfoHvcC, cfoHEVCNaluArray] at ho ⊢
    try simp_all [groupedBy, ownLengths, ascii, sgpdLists, avccOptNames]
    try omega
  · rw [kc]
    simp [tagOf, instField, env, Cfo.counted, Cfo.counted0, cfoHvcC, cfoHEVCNaluArray] at ho ⊢
    try simp_all [groupedBy, ownLengths, ascii, sgpdLists, avccOptNames]
    try omega

/-- HvcC.NaluArrays.Nalus.NALUnit -/
theorem row24 : RowFacts Cat.bdHvcC { box := "HvcC", path := [("NaluArrays", fun _ => true), ("Nalus", fun _ => true)], list := "NALUnit", count := "Length" } := by
  intro ctx sv
  refine ⟨(some cfoHEVCNalu), Cat.fsHEVCNalu, { name := "NALUnit", size := 8, lenDyn := true }, (.uint 8),
      (.cons (c := (some cfoHvcC)) (fs := Cat.fsHvcC) (f := { name := "NaluArrays", lenDyn := true }) (t := (.slice Cat.tyHEVCNaluArray)) (Fields.nodup_names Cat.fsHvcC (by decide)) (by simp [Cat.fsHvcC, Fields.ofList, Fields.toList]) rfl (by intro sv' hroot hty h; have hroot' := hroot rfl; subst hroot'; simp [there, instField, present, env, anyVersion, groupedBy, ownLengths, Cfo.counted, Cfo.counted0, cfoHvcC, cfoHEVCNaluArray, cfoHEVCNalu] at *; try simp_all [groupedBy, ownLengths, ascii, sgpdLists, avccOptNames]; try omega)
      (.cons (c := (some cfoHEVCNaluArray)) (fs := Cat.fsHEVCNaluArray) (f := { name := "Nalus", lenDyn := true }) (t := (.slice Cat.tyHEVCNalu)) (Fields.nodup_names Cat.fsHEVCNaluArray (by decide)) (by simp [Cat.fsHEVCNaluArray, Fields.ofList, Fields.toList]) rfl (by intro sv' hroot hty h; simp [there, instField, present, env, anyVersion, groupedBy, ownLengths, Cfo.counted, Cfo.counted0, cfoHvcC, cfoHEVCNaluArray, cfoHEVCNalu] at *; try simp_all [groupedBy, ownLengths, ascii, sgpdLists, avccOptNames]; try omega)
      (.nil (c := (some cfoHEVCNalu)) (fs := Cat.fsHEVCNalu) (Fields.nodup_names Cat.fsHEVCNalu (by decide))))),
      (by simp [Cat.fsHEVCNalu, Fields.ofList, Fields.toList]), rfl, ?_⟩
  intro sub hs hty ho
  have kc := number_uint (g := { name := "Length", size := 16 }) (w := 16) (Fields.nodup_names Cat.fsHEVCNalu (by decide)) hty (by simp [Cat.fsHEVCNalu, Fields.ofList, Fields.toList])
  simp only at kc
  refine ⟨?_, Or.inl ?_⟩
  · simp [there, instField, present, env, anyVersion, groupedBy, ownLengths, Cfo.counted, Cfo.counted0, cfoHvcC, cfoHEVCNaluArray, cfoHEVCNalu] at ho ⊢
    try simp_all [groupedBy, ownLengths, ascii, sgpdLists, avccOptNames]
    try omega
  · rw [kc]
    simp [tagOf, instField, env, Cfo.counted, Cfo.counted0, cfoHvcC, cfoHEVCNaluArray, cfoHEVCNalu] at ho ⊢
    try simp_all [groupedBy, ownLengths, ascii, sgpdLists, avccOptNames]
    try omega

/-- AVCDecoderConfiguration.SequenceParameterSets -/
theorem row25 : RowFacts Cat.bdAVCDecoderConfiguration { box := "AVCDecoderConfiguration", list := "SequenceParameterSets", count := "NumOfSequenceParameterSets" } := by
  intro ctx sv
  refine ⟨(some cfoAVCDecoderConfiguration), Cat.fsAVCDecoderConfiguration, { name := "SequenceParameterSets", lenDyn := true }, Cat.tyAVCParameterSet,
      (.nil (c := (some cfoAVCDecoderConfiguration)) (fs := Cat.fsAVCDecoderConfiguration) (Fields.nodup_names Cat.fsAVCDecoderConfiguration (by decide))),
      (by simp [Cat.fsAVCDecoderConfiguration, Fields.ofList, Fields.toList]), rfl, ?_⟩
  intro sub hs hty ho
  have hs' := hs rfl; subst hs'
  have kc := number_uint (g := { name := "NumOfSequenceParameterSets", size := 5 }) (w := 8) (Fields.nodup_names Cat.fsAVCDecoderConfiguration (by decide)) hty (by simp [Cat.fsAVCDecoderConfiguration, Fields.ofList, Fields.toList])
  simp only at kc
  refine ⟨?_, Or.inl ?_⟩
  · simp [there, instField, present, env, anyVersion, groupedBy, ownLengths, Cfo.counted, Cfo.counted0, cfoAVCDecoderConfiguration] at ho ⊢
    try simp_all [groupedBy, ownLengths, ascii, sgpdLists, avccOptNames]
    try omega
  · rw [kc]
    simp [tagOf, instField, env, Cfo.counted, Cfo.counted0, cfoAVCDecoderConfiguration] at ho ⊢
    try simp_all [groupedBy, ownLengths, ascii, sgpdLists, avccOptNames]
    try omega

/-- AVCDecoderConfiguration.PictureParameterSets -/
theorem row26 : RowFacts Cat.bdAVCDecoderConfiguration { box := "AVCDecoderConfiguration", list := "PictureParameterSets", count := "NumOfPictureParameterSets" } := by
  intro ctx sv
  refine ⟨(some cfoAVCDecoderConfiguration), Cat.fsAVCDecoderConfiguration, { name := "PictureParameterSets", lenDyn := true }, Cat.tyAVCParameterSet,
      (.nil (c := (some cfoAVCDecoderConfiguration)) (fs := Cat.fsAVCDecoderConfiguration) (Fields.nodup_names Cat.fsAVCDecoderConfiguration (by decide))),
      (by simp [Cat.fsAVCDecoderConfiguration, Fields.ofList, Fields.toList]), rfl, ?_⟩
  intro sub hs hty ho
  have hs' := hs rfl; subst hs'
  have kc := number_uint (g := { name := "NumOfPictureParameterSets", size := 8 }) (w := 8) (Fields.nodup_names Cat.fsAVCDecoderConfiguration (by decide)) hty (by simp [Cat.fsAVCDecoderConfiguration, Fields.ofList, Fields.toList])
  simp only at kc
  refine ⟨?_, Or.inl ?_⟩
  · simp [there, instField, present, env, anyVersion, groupedBy, ownLengths, Cfo.counted, Cfo.counted0, cfoAVCDecoderConfiguration] at ho ⊢
    try simp_all [groupedBy, ownLengths, ascii, sgpdLists, avccOptNames]
    try omega
  · rw [kc]
    simp [tagOf, instField, env, Cfo.counted, Cfo.counted0, cfoAVCDecoderConfiguration] at ho ⊢
    try simp_all [groupedBy, ownLengths, ascii, sgpdLists, avccOptNames]
    try omega

/-- AVCDecoderConfiguration.SequenceParameterSetsExt -/
theorem row27 : RowFacts Cat.bdAVCDecoderConfiguration { box := "AVCDecoderConfiguration", list := "SequenceParameterSetsExt", count := "NumOfSequenceParameterSetExt", only := fun sv => sv.bool "HighProfileFieldsEnabled" } := by
  intro ctx sv
  refine ⟨(some cfoAVCDecoderConfiguration), Cat.fsAVCDecoderConfiguration, { name := "SequenceParameterSetsExt", lenDyn := true, optDyn := true }, Cat.tyAVCParameterSet,
      (.nil (c := (some cfoAVCDecoderConfiguration)) (fs := Cat.fsAVCDecoderConfiguration) (Fields.nodup_names Cat.fsAVCDecoderConfiguration (by decide))),
      (by simp [Cat.fsAVCDecoderConfiguration, Fields.ofList, Fields.toList]), rfl, ?_⟩
  intro sub hs hty ho
  have hs' := hs rfl; subst hs'
  have kc := number_uint (g := { name := "NumOfSequenceParameterSetExt", size := 8, optDyn := true }) (w := 8) (Fields.nodup_names Cat.fsAVCDecoderConfiguration (by decide)) hty (by simp [Cat.fsAVCDecoderConfiguration, Fields.ofList, Fields.toList])
  simp only at kc
  refine ⟨?_, Or.inl ?_⟩
  · simp [there, instField, present, env, anyVersion, groupedBy, ownLengths, Cfo.counted, Cfo.counted0, cfoAVCDecoderConfiguration] at ho ⊢
    try simp_all [groupedBy, ownLengths, ascii, sgpdLists, avccOptNames]
    try omega
  · rw [kc]
    simp [tagOf, instField, env, Cfo.counted, Cfo.counted0, cfoAVCDecoderConfiguration] at ho ⊢
    try simp_all [groupedBy, ownLengths, ascii, sgpdLists, avccOptNames]
    try omega

/-- AVCDecoderConfiguration.SequenceParameterSets.NALUnit -/
theorem row28 : RowFacts Cat.bdAVCDecoderConfiguration { box := "AVCDecoderConfiguration", path := [("SequenceParameterSets", fun _ => true)], list := "NALUnit", count := "Length" } := by
  intro ctx sv
  refine ⟨(some cfoAVCParameterSet), Cat.fsAVCParameterSet, { name := "NALUnit", size := 8, lenDyn := true }, (.uint 8),
      (.cons (c := (some cfoAVCDecoderConfiguration)) (fs := Cat.fsAVCDecoderConfiguration) (f := { name := "SequenceParameterSets", lenDyn := true }) (t := (.slice Cat.tyAVCParameterSet)) (Fields.nodup_names Cat.fsAVCDecoderConfiguration (by decide)) (by simp [Cat.fsAVCDecoderConfiguration, Fields.ofList, Fields.toList]) rfl (by intro sv' hroot hty h; have hroot' := hroot rfl; subst hroot'; simp [there, instField, present, env, anyVersion, groupedBy, ownLengths, Cfo.counted, Cfo.counted0, cfoAVCDecoderConfiguration, cfoAVCParameterSet] at *; try simp_all [groupedBy, ownLengths, ascii, sgpdLists, avccOptNames]; try omega)
      (.nil (c := (some cfoAVCParameterSet)) (fs := Cat.fsAVCParameterSet) (Fields.nodup_names Cat.fsAVCParameterSet (by decide)))),
      (by simp [Cat.fsAVCParameterSet, Fields.ofList, Fields.toList]), rfl, ?_⟩
  intro sub hs hty ho
  have kc := number_uint (g := { name := "Length", size := 16 }) (w := 16) (Fields.nodup_names Cat.fsAVCParameterSet (by decide)) hty (by simp [Cat.fsAVCParameterSet, Fields.ofList, Fields.toList])
  simp only at kc
  refine ⟨?_, Or.inl ?_⟩
  · simp [there, instField, present, env, anyVersion, groupedBy, ownLengths, Cfo.counted, Cfo.counted0, cfoAVCDecoderConfiguration, cfoAVCParameterSet] at ho ⊢
    try simp_all [groupedBy, ownLengths, ascii, sgpdLists, avccOptNames]
    try omega
  · rw [kc]
    simp [tagOf, instField, env, Cfo.counted, Cfo.counted0, cfoAVCDecoderConfiguration, cfoAVCParameterSet] at ho ⊢
    try simp_all [groupedBy, ownLengths, ascii, sgpdLists, avccOptNames]
    try omega

/-- AVCDecoderConfiguration.PictureParameterSets.NALUnit -/
theorem row29 : RowFacts Cat.bdAVCDecoderConfiguration { box := "AVCDecoderConfiguration", path := [("PictureParameterSets", fun _ => true)], list := "NALUnit", count := "Length" } := by
  intro ctx sv
  refine ⟨(some cfoAVCParameterSet), Cat.fsAVCParameterSet, { name := "NALUnit", size := 8, lenDyn := true }, (.uint 8),
      (.cons (c := (some cfoAVCDecoderConfiguration)) (fs := Cat.fsAVCDecoderConfiguration) (f := { name := "PictureParameterSets", lenDyn := true }) (t := (.slice Cat.tyAVCParameterSet)) (Fields.nodup_names Cat.fsAVCDecoderConfiguration (by decide)) (by simp [Cat.fsAVCDecoderConfiguration, Fields.ofList, Fields.toList]) rfl (by intro sv' hroot hty h; have hroot' := hroot rfl; subst hroot'; simp [there, instField, present, env, anyVersion, groupedBy, ownLengths, Cfo.counted, Cfo.counted0, cfoAVCDecoderConfiguration, cfoAVCParameterSet] at *; try simp_all [groupedBy, ownLengths, ascii, sgpdLists, avccOptNames]; try omega)
      (.nil (c := (some cfoAVCParameterSet)) (fs := Cat.fsAVCParameterSet) (Fields.nodup_names Cat.fsAVCParameterSet (by decide)))),
      (by simp [Cat.fsAVCParameterSet, Fields.ofList, Fields.toList]), rfl, ?_⟩
  intro sub hs hty ho
  have kc := number_uint (g := { name := "Length", size := 16 }) (w := 16) (Fields.nodup_names Cat.fsAVCParameterSet (by decide)) hty (by simp [Cat.fsAVCParameterSet, Fields.ofList, Fields.toList])
  simp only at kc
  refine ⟨?_, Or.inl ?_⟩
  · simp [there, instField, present, env, anyVersion, groupedBy, ownLengths, Cfo.counted, Cfo.counted0, cfoAVCDecoderConfiguration, cfoAVCParameterSet] at ho ⊢
    try simp_all [groupedBy, ownLengths, ascii, sgpdLists, avccOptNames]
    try omega
  · rw [kc]
    simp [tagOf, instField, env, Cfo.counted, Cfo.counted0, cfoAVCDecoderConfiguration, cfoAVCParameterSet] at ho ⊢
    try simp_all [groupedBy, ownLengths, ascii, sgpdLists, avccOptNames]
    try omega

/-- AVCDecoderConfiguration.SequenceParameterSetsExt.NALUnit -/
theorem row30 : RowFacts Cat.bdAVCDecoderConfiguration { box := "AVCDecoderConfiguration", path := [("SequenceParameterSetsExt", fun sv => sv.bool "HighProfileFieldsEnabled")], list := "NALUnit", count := "Length" } := by
  intro ctx sv
  refine ⟨(some cfoAVCParameterSet), Cat.fsAVCParameterSet, { name := "NALUnit", size := 8, lenDyn := true }, (.uint 8),
      (.cons (c := (some cfoAVCDecoderConfiguration)) (fs := Cat.fsAVCDecoderConfiguration) (f := { name := "SequenceParameterSetsExt", lenDyn := true, optDyn := true }) (t := (.slice Cat.tyAVCParameterSet)) (Fields.nodup_names Cat.fsAVCDecoderConfiguration (by decide)) (by simp [Cat.fsAVCDecoderConfiguration, Fields.ofList, Fields.toList]) rfl (by intro sv' hroot hty h; have hroot' := hroot rfl; subst hroot'; simp [there, instField, present, env, anyVersion, groupedBy, ownLengths, Cfo.counted, Cfo.counted0, cfoAVCDecoderConfiguration, cfoAVCParameterSet] at *; try simp_all [groupedBy, ownLengths, ascii, sgpdLists, avccOptNames]; try omega)
      (.nil (c := (some cfoAVCParameterSet)) (fs := Cat.fsAVCParameterSet) (Fields.nodup_names Cat.fsAVCParameterSet (by decide)))),
      (by simp [Cat.fsAVCParameterSet, Fields.ofList, Fields.toList]), rfl, ?_⟩
  intro sub hs hty ho
  have kc := number_uint (g := { name := "Length", size := 16 }) (w := 16) (Fields.nodup_names Cat.fsAVCParameterSet (by decide)) hty (by simp [Cat.fsAVCParameterSet, Fields.ofList, Fields.toList])
  simp only at kc
  refine ⟨?_, Or.inl ?_⟩
  · simp [there, instField, present, env, anyVersion, groupedBy, ownLengths, Cfo.counted, Cfo.counted0, cfoAVCDecoderConfiguration, cfoAVCParameterSet] at ho ⊢
    try simp_all [groupedBy, ownLengths, ascii, sgpdLists, avccOptNames]
    try omega
  · rw [kc]
    simp [tagOf, instField, env, Cfo.counted, Cfo.counted0, cfoAVCDecoderConfiguration, cfoAVCParameterSet] at ho ⊢
    try simp_all [groupedBy, ownLengths, ascii, sgpdLists, avccOptNames]
    try omega

/-- Sgpd.AlternativeStartupEntries -/
theorem row31 : RowFacts Cat.bdSgpd { box := "Sgpd", list := "AlternativeStartupEntries", count := "EntryCount", only := fun sv => groupedBy [0x61, 0x6c, 0x73, 0x74] sv && !ownLengths sv } := by
  intro ctx sv
  refine ⟨(some cfoSgpd), Cat.fsSgpd, { name := "AlternativeStartupEntries", sizeDyn := true, lenDyn := true, optDyn := true }, Cat.tyAlternativeStartupEntry,
      (.nil (c := (some cfoSgpd)) (fs := Cat.fsSgpd) (Fields.nodup_names Cat.fsSgpd (by decide))),
      (by simp [Cat.fsSgpd, Fields.ofList, Fields.toList]), rfl, ?_⟩
  intro sub hs hty ho
  have hs' := hs rfl; subst hs'
  have k0 := number_uint (g := { name := "DefaultLength", size := 32, version := 1 }) (w := 32) (Fields.nodup_names Cat.fsSgpd (by decide)) hty (by simp [Cat.fsSgpd, Fields.ofList, Fields.toList])
  simp only at k0
  have kc := number_uint (g := { name := "EntryCount", size := 32 }) (w := 32) (Fields.nodup_names Cat.fsSgpd (by decide)) hty (by simp [Cat.fsSgpd, Fields.ofList, Fields.toList])
  simp only at kc
  refine ⟨?_, Or.inl ?_⟩
  · simp [there, instField, present, env, anyVersion, groupedBy, ownLengths, Cfo.counted, Cfo.counted0, cfoSgpd, k0] at ho ⊢
    try simp_all [groupedBy, ownLengths, ascii, sgpdLists, avccOptNames]
    try omega
  · rw [kc]
    simp [tagOf, instField, env, Cfo.counted, Cfo.counted0, cfoSgpd, k0] at ho ⊢
    try simp_all [groupedBy, ownLengths, ascii, sgpdLists, avccOptNames]
    try omega

/-- Sgpd.AlternativeStartupEntriesL -/
theorem row32 : RowFacts Cat.bdSgpd { box := "Sgpd", list := "AlternativeStartupEntriesL", count := "EntryCount", only := fun sv => groupedBy [0x61, 0x6c, 0x73, 0x74] sv && ownLengths sv } := by
  intro ctx sv
  refine ⟨(some cfoSgpd), Cat.fsSgpd, { name := "AlternativeStartupEntriesL", lenDyn := true, optDyn := true }, Cat.tyAlternativeStartupEntryL,
      (.nil (c := (some cfoSgpd)) (fs := Cat.fsSgpd) (Fields.nodup_names Cat.fsSgpd (by decide))),
      (by simp [Cat.fsSgpd, Fields.ofList, Fields.toList]), rfl, ?_⟩
  intro sub hs hty ho
  have hs' := hs rfl; subst hs'
  have k0 := number_uint (g := { name := "DefaultLength", size := 32, version := 1 }) (w := 32) (Fields.nodup_names Cat.fsSgpd (by decide)) hty (by simp [Cat.fsSgpd, Fields.ofList, Fields.toList])
  simp only at k0
  have kc := number_uint (g := { name := "EntryCount", size := 32 }) (w := 32) (Fields.nodup_names Cat.fsSgpd (by decide)) hty (by simp [Cat.fsSgpd, Fields.ofList, Fields.toList])
  simp only at kc
  refine ⟨?_, Or.inl ?_⟩
  · simp [there, instField, present, env, anyVersion, groupedBy, ownLengths, Cfo.counted, Cfo.counted0, cfoSgpd, k0] at ho ⊢
    try simp_all [groupedBy, ownLengths, ascii, sgpdLists, avccOptNames]
    try omega
  · rw [kc]
    simp [tagOf, instField, env, Cfo.counted, Cfo.counted0, cfoSgpd, k0] at ho ⊢
    try simp_all [groupedBy, ownLengths, ascii, sgpdLists, avccOptNames]
    try omega

/-- Sgpd.VisualRandomAccessEntries -/
theorem row33 : RowFacts Cat.bdSgpd { box := "Sgpd", list := "VisualRandomAccessEntries", count := "EntryCount", only := fun sv => groupedBy [0x72, 0x61, 0x70, 0x20] sv && !ownLengths sv } := by
  intro ctx sv
  refine ⟨(some cfoSgpd), Cat.fsSgpd, { name := "VisualRandomAccessEntries", lenDyn := true, optDyn := true }, Cat.tyVisualRandomAccessEntry,
      (.nil (c := (some cfoSgpd)) (fs := Cat.fsSgpd) (Fields.nodup_names Cat.fsSgpd (by decide))),
      (by simp [Cat.fsSgpd, Fields.ofList, Fields.toList]), rfl, ?_⟩
  intro sub hs hty ho
  have hs' := hs rfl; subst hs'
  have k0 := number_uint (g := { name := "DefaultLength", size := 32, version := 1 }) (w := 32) (Fields.nodup_names Cat.fsSgpd (by decide)) hty (by simp [Cat.fsSgpd, Fields.ofList, Fields.toList])
  simp only at k0
  have kc := number_uint (g := { name := "EntryCount", size := 32 }) (w := 32) (Fields.nodup_names Cat.fsSgpd (by decide)) hty (by simp [Cat.fsSgpd, Fields.ofList, Fields.toList])
  simp only at kc
  refine ⟨?_, Or.inl ?_⟩
  · simp [there, instField, present, env, anyVersion, groupedBy, ownLengths, Cfo.counted, Cfo.counted0, cfoSgpd, k0] at ho ⊢
    try simp_all [groupedBy, ownLengths, ascii, sgpdLists, avccOptNames]
    try omega
  · rw [kc]
    simp [tagOf, instField, env, Cfo.counted, Cfo.counted0, cfoSgpd, k0] at ho ⊢
    try simp_all [groupedBy, ownLengths, ascii, sgpdLists, avccOptNames]
    try omega

/-- Sgpd.VisualRandomAccessEntriesL -/
theorem row34 : RowFacts Cat.bdSgpd { box := "Sgpd", list := "VisualRandomAccessEntriesL", count := "EntryCount", only := fun sv => groupedBy [0x72, 0x61, 0x70, 0x20] sv && ownLengths sv } := by
  intro ctx sv
  refine ⟨(some cfoSgpd), Cat.fsSgpd, { name := "VisualRandomAccessEntriesL", lenDyn := true, optDyn := true }, Cat.tyVisualRandomAccessEntryL,
      (.nil (c := (some cfoSgpd)) (fs := Cat.fsSgpd) (Fields.nodup_names Cat.fsSgpd (by decide))),
      (by simp [Cat.fsSgpd, Fields.ofList, Fields.toList]), rfl, ?_⟩
  intro sub hs hty ho
  have hs' := hs rfl; subst hs'
  have k0 := number_uint (g := { name := "DefaultLength", size := 32, version := 1 }) (w := 32) (Fields.nodup_names Cat.fsSgpd (by decide)) hty (by simp [Cat.fsSgpd, Fields.ofList, Fields.toList])
  simp only at k0
  have kc := number_uint (g := { name := "EntryCount", size := 32 }) (w := 32) (Fields.nodup_names Cat.fsSgpd (by decide)) hty (by simp [Cat.fsSgpd, Fields.ofList, Fields.toList])
  simp only at kc
  refine ⟨?_, Or.inl ?_⟩
  · simp [there, instField, present, env, anyVersion, groupedBy, ownLengths, Cfo.counted, Cfo.counted0, cfoSgpd, k0] at ho ⊢
    try simp_all [groupedBy, ownLengths, ascii, sgpdLists, avccOptNames]
    try omega
  · rw [kc]
    simp [tagOf, instField, env, Cfo.counted, Cfo.counted0, cfoSgpd, k0] at ho ⊢
    try simp_all [groupedBy, ownLengths, ascii, sgpdLists, avccOptNames]
    try omega

/-- Sgpd.TemporalLevelEntries -/
theorem row35 : RowFacts Cat.bdSgpd { box := "Sgpd", list := "TemporalLevelEntries", count := "EntryCount", only := fun sv => groupedBy [0x74, 0x65, 0x6c, 0x65] sv && !ownLengths sv } := by
  intro ctx sv
  refine ⟨(some cfoSgpd), Cat.fsSgpd, { name := "TemporalLevelEntries", lenDyn := true, optDyn := true }, Cat.tyTemporalLevelEntry,
      (.nil (c := (some cfoSgpd)) (fs := Cat.fsSgpd) (Fields.nodup_names Cat.fsSgpd (by decide))),
      (by simp [Cat.fsSgpd, Fields.ofList, Fields.toList]), rfl, ?_⟩
  intro sub hs hty ho
  have hs' := hs rfl; subst hs'
  have k0 := number_uint (g := { name := "DefaultLength", size := 32, version := 1 }) (w := 32) (Fields.nodup_names Cat.fsSgpd (by decide)) hty (by simp [Cat.fsSgpd, Fields.ofList, Fields.toList])
  simp only at k0
  have kc := number_uint (g := { name := "EntryCount", size := 32 }) (w := 32) (Fields.nodup_names Cat.fsSgpd (by decide)) hty (by simp [Cat.fsSgpd, Fields.ofList, Fields.toList])
  simp only at kc
  refine ⟨?_, Or.inl ?_⟩
  · simp [there, instField, present, env, anyVersion, groupedBy, ownLengths, Cfo.counted, Cfo.counted0, cfoSgpd, k0] at ho ⊢
    try simp_all [groupedBy, ownLengths, ascii, sgpdLists, avccOptNames]
    try omega
  · rw [kc]
    simp [tagOf, instField, env, Cfo.counted, Cfo.counted0, cfoSgpd, k0] at ho ⊢
    try simp_all [groupedBy, ownLengths, ascii, sgpdLists, avccOptNames]
    try omega

/-- Sgpd.TemporalLevelEntriesL -/
theorem row36 : RowFacts Cat.bdSgpd { box := "Sgpd", list := "TemporalLevelEntriesL", count := "EntryCount", only := fun sv => groupedBy [0x74, 0x65, 0x6c, 0x65] sv && ownLengths sv } := by
  intro ctx sv
  refine ⟨(some cfoSgpd), Cat.fsSgpd, { name := "TemporalLevelEntriesL", lenDyn := true, optDyn := true }, Cat.tyTemporalLevelEntryL,
      (.nil (c := (some cfoSgpd)) (fs := Cat.fsSgpd) (Fields.nodup_names Cat.fsSgpd (by decide))),
      (by simp [Cat.fsSgpd, Fields.ofList, Fields.toList]), rfl, ?_⟩
  intro sub hs hty ho
  have hs' := hs rfl; subst hs'
  have k0 := number_uint (g := { name := "DefaultLength", size := 32, version := 1 }) (w := 32) (Fields.nodup_names Cat.fsSgpd (by decide)) hty (by simp [Cat.fsSgpd, Fields.ofList, Fields.toList])
  simp only at k0
  have kc := number_uint (g := { name := "EntryCount", size := 32 }) (w := 32) (Fields.nodup_names Cat.fsSgpd (by decide)) hty (by simp [Cat.fsSgpd, Fields.ofList, Fields.toList])
  simp only at kc
  refine ⟨?_, Or.inl ?_⟩
  · simp [there, instField, present, env, anyVersion, groupedBy, ownLengths, Cfo.counted, Cfo.counted0, cfoSgpd, k0] at ho ⊢
    try simp_all [groupedBy, ownLengths, ascii, sgpdLists, avccOptNames]
    try omega
  · rw [kc]
    simp [tagOf, instField, env, Cfo.counted, Cfo.counted0, cfoSgpd, k0] at ho ⊢
    try simp_all [groupedBy, ownLengths, ascii, sgpdLists, avccOptNames]
    try omega

/-- Sgpd.AlternativeStartupEntries.SampleOffset -/
theorem row37 : RowFacts Cat.bdSgpd { box := "Sgpd", path := [("AlternativeStartupEntries", fun sv => groupedBy [0x61, 0x6c, 0x73, 0x74] sv && !ownLengths sv)], list := "SampleOffset", count := "RollCount" } := by
  intro ctx sv
  refine ⟨(some cfoAlternativeStartupEntry), Cat.fsAlternativeStartupEntry, { name := "SampleOffset", size := 32, lenDyn := true }, (.uint 32),
      (.cons (c := (some cfoSgpd)) (fs := Cat.fsSgpd) (f := { name := "AlternativeStartupEntries", sizeDyn := true, lenDyn := true, optDyn := true }) (t := (.slice Cat.tyAlternativeStartupEntry)) (Fields.nodup_names Cat.fsSgpd (by decide)) (by simp [Cat.fsSgpd, Fields.ofList, Fields.toList]) rfl (by intro sv' hroot hty h; have hroot' := hroot rfl; subst hroot'; have k0 := number_uint (g := { name := "DefaultLength", size := 32, version := 1 }) (w := 32) (Fields.nodup_names Cat.fsSgpd (by decide)) hty (by simp [Cat.fsSgpd, Fields.ofList, Fields.toList]); simp only at k0; simp [there, instField, present, env, anyVersion, groupedBy, ownLengths, Cfo.counted, Cfo.counted0, cfoSgpd, cfoAlternativeStartupEntry, k0] at *; try simp_all [groupedBy, ownLengths, ascii, sgpdLists, avccOptNames]; try omega)
      (.nil (c := (some cfoAlternativeStartupEntry)) (fs := Cat.fsAlternativeStartupEntry) (Fields.nodup_names Cat.fsAlternativeStartupEntry (by decide)))),
      (by simp [Cat.fsAlternativeStartupEntry, Fields.ofList, Fields.toList]), rfl, ?_⟩
  intro sub hs hty ho
  have kc := number_uint (g := { name := "RollCount", size := 16 }) (w := 16) (Fields.nodup_names Cat.fsAlternativeStartupEntry (by decide)) hty (by simp [Cat.fsAlternativeStartupEntry, Fields.ofList, Fields.toList])
  simp only at kc
  refine ⟨?_, Or.inl ?_⟩
  · simp [there, instField, present, env, anyVersion, groupedBy, ownLengths, Cfo.counted, Cfo.counted0, cfoSgpd, cfoAlternativeStartupEntry] at ho ⊢
    try simp_all [groupedBy, ownLengths, ascii, sgpdLists, avccOptNames]
    try omega
  · rw [kc]
    simp [tagOf, instField, env, Cfo.counted, Cfo.counted0, cfoSgpd, cfoAlternativeStartupEntry] at ho ⊢
    try simp_all [groupedBy, ownLengths, ascii, sgpdLists, avccOptNames]
    try omega

/-- Sgpd.AlternativeStartupEntriesL.AlternativeStartupEntry.SampleOffset -/
theorem row38 : RowFacts Cat.bdSgpd { box := "Sgpd", path := [("AlternativeStartupEntriesL", fun sv => groupedBy [0x61, 0x6c, 0x73, 0x74] sv && ownLengths sv), ("AlternativeStartupEntry", fun _ => true)], list := "SampleOffset", count := "RollCount" } := by
  intro ctx sv
  refine ⟨(some cfoAlternativeStartupEntry), Cat.fsAlternativeStartupEntry, { name := "SampleOffset", size := 32, lenDyn := true }, (.uint 32),
      (.cons (c := (some cfoSgpd)) (fs := Cat.fsSgpd) (f := { name := "AlternativeStartupEntriesL", lenDyn := true, optDyn := true }) (t := (.slice Cat.tyAlternativeStartupEntryL)) (Fields.nodup_names Cat.fsSgpd (by decide)) (by simp [Cat.fsSgpd, Fields.ofList, Fields.toList]) rfl (by intro sv' hroot hty h; have hroot' := hroot rfl; subst hroot'; have k0 := number_uint (g := { name := "DefaultLength", size := 32, version := 1 }) (w := 32) (Fields.nodup_names Cat.fsSgpd (by decide)) hty (by simp [Cat.fsSgpd, Fields.ofList, Fields.toList]); simp only at k0; simp [there, instField, present, env, anyVersion, groupedBy, ownLengths, Cfo.counted, Cfo.counted0, cfoSgpd, cfoAlternativeStartupEntryL, cfoAlternativeStartupEntry, k0] at *; try simp_all [groupedBy, ownLengths, ascii, sgpdLists, avccOptNames]; try omega)
      (.cons (c := (some cfoAlternativeStartupEntryL)) (fs := Cat.fsAlternativeStartupEntryL) (f := { name := "AlternativeStartupEntry", extend := true, sizeDyn := true }) (t := Cat.tyAlternativeStartupEntry) (Fields.nodup_names Cat.fsAlternativeStartupEntryL (by decide)) (by simp [Cat.fsAlternativeStartupEntryL, Fields.ofList, Fields.toList]) rfl (by intro sv' hroot hty h; simp [there, instField, present, env, anyVersion, groupedBy, ownLengths, Cfo.counted, Cfo.counted0, cfoSgpd, cfoAlternativeStartupEntryL, cfoAlternativeStartupEntry] at *; try simp_all [groupedBy, ownLengths, ascii, sgpdLists, avccOptNames]; try omega)
      (.nil (c := (some cfoAlternativeStartupEntry)) (fs := Cat.fsAlternativeStartupEntry) (Fields.nodup_names Cat.fsAlternativeStartupEntry (by decide))))),
      (by simp [Cat.fsAlternativeStartupEntry, Fields.ofList, Fields.toList]), rfl, ?_⟩
  intro sub hs hty ho
  have kc := number_uint (g := { name := "RollCount", size := 16 }) (w := 16) (Fields.nodup_names Cat.fsAlternativeStartupEntry (by decide)) hty (by simp [Cat.fsAlternativeStartupEntry, Fields.ofList, Fields.toList])
  simp only at kc
  refine ⟨?_, Or.inl ?_⟩
  · simp [there, instField, present, env, anyVersion, groupedBy, ownLengths, Cfo.counted, Cfo.counted0, cfoSgpd, cfoAlternativeStartupEntryL, cfoAlternativeStartupEntry] at ho ⊢
    try simp_all [groupedBy, ownLengths, ascii, sgpdLists, avccOptNames]
    try omega
  · rw [kc]
    simp [tagOf, instField, env, Cfo.counted, Cfo.counted0, cfoSgpd, cfoAlternativeStartupEntryL, cfoAlternativeStartupEntry] at ho ⊢
    try simp_all [groupedBy, ownLengths, ascii, sgpdLists, avccOptNames]
    try omega

/-- `uint(KeySize) - 8` -/
theorem keySize_length {i : Int} (h1 : -2147483648 ≤ i) (h2 : i < 2147483648) :
    2 ^ 63 ≤ sub64 (uintOfInt i) 8 ∨ (sub64 (uintOfInt i) 8 : Int) + 8 = i := by
  have hs : sub64 (uintOfInt i) 8 = (uintOfInt i + (2 ^ 64 - 8)) % 2 ^ 64 := rfl
  have hi : uintOfInt i = (i % (2 ^ 64 : Int)).toNat := rfl
  generalize sub64 (uintOfInt i) 8 = z at *
  generalize uintOfInt i = y at *
  omega

theorem cfoKey_length {ctx : Ctx} {sub : SV} : cfoKey.length "KeyValue" ctx sub = some (sub64 (uintOfInt (sub.int "KeySize")) 8) := by
  unfold cfoKey
  simp only [if_true]

theorem instField_length {c : Cfo} {ctx : Ctx} {sv : SV} {f : Field} {z : Nat} (hd : f.lenDyn = true)
   (h : c.length f.name ctx sv = some z) : (instField c ctx sv f).length = z := by
  simp [instField, hd, h]

theorem keyValue_tag {e : Env} {sub : SV} :
    (tagOf e (some cfoKey) sub { name := "KeyValue", size := 8, lenDyn := true }).length =
      sub64 (uintOfInt (sub.int "KeySize")) 8 := 
  instField_length (c := cfoKey) (ctx := e.ctx) (sv := sub) (f := { name := "KeyValue", size := 8, lenDyn := true }) rfl cfoKey_length

/-- Keys.Entries.KeyValue -/
theorem row19 : RowFacts Cat.bdKeys { box := "Keys", path := [("Entries", fun _ => true)], list := "KeyValue", count := "KeySize", extra := 8 } := by
  intro ctx sv
  refine ⟨(some cfoKey), Cat.fsKey, { name := "KeyValue", size := 8, lenDyn := true }, (.uint 8),
      (.cons (c := (some cfoKeys)) (fs := Cat.fsKeys) (f := { name := "Entries", lenDyn := true }) (t := (.slice Cat.tyKey)) (Fields.nodup_names Cat.fsKeys (by decide)) (by simp [Cat.fsKeys, Fields.ofList, Fields.toList]) rfl
        (fun sv' _ _ _ => by simp [there, instField, present, anyVersion])
      (.nil (c := (some cfoKey)) (fs := Cat.fsKey) (Fields.nodup_names Cat.fsKey (by decide)))),
      (by simp [Cat.fsKey, Fields.ofList, Fields.toList]), rfl, ?_⟩
  intro sub hs hty ho
  obtain ⟨kc, kl, ku⟩ := number_int (g := { name := "KeySize", size := 32 }) (w := 32) (Fields.nodup_names Cat.fsKey (by decide)) hty (by simp [Cat.fsKey, Fields.ofList, Fields.toList])
  simp only at kc kl ku
  refine ⟨by simp [there, instField, present, env, anyVersion], Or.inr ⟨rfl, by decide +kernel, by decide, rfl, ?_, ?_⟩⟩
  · intro x hx
    exact row_byte hx rfl rfl
  · rw [kc]
    have ht : (tagOf (env Cat.bdKeys ctx sv) (some cfoKey) sub { name := "KeyValue", size := 8, lenDyn := true }).length =
        sub64 (uintOfInt (sub.int "KeySize")) 8 := keyValue_tag
    rw [ht]
    exact keySize_length (by simpa using kl) (by simpa using ku)

theorem esds_path1 {ctx : Ctx} {sv sv' : SV} :
    there (env Cat.bdEsds ctx sv) (some Cfo.base) sv' { name := "Descriptors" } = true := by
  simp [there, instField, present, anyVersion]

theorem esds_path2 {ctx : Ctx} {sv sv' : SV} (h : sv'.int "Tag" = 3) :
    there (env Cat.bdEsds ctx sv) (some cfoDescriptor) sv' { name := "ESDescriptor", extend := true, optDyn := true } = true := by
  have key : cfoDescriptor.opt "ESDescriptor" ctx sv' = true := by simp [cfoDescriptor, h]
  simp [there, instField, present, anyVersion, env, key]

theorem esds_path3 {ctx : Ctx} {sv sv' : SV} (h3 : sv'.int "Tag" ≠ 3) (h4 : sv'.int "Tag" ≠ 4) :
    there (env Cat.bdEsds ctx sv) (some cfoDescriptor) sv' { name := "Data", size := 8, optDyn := true, lenDyn := true } = true := by
  have key : cfoDescriptor.opt "Data" ctx sv' = true := by simp [cfoDescriptor, h3, h4]
  simp [there, instField, present, anyVersion, env, key]

theorem esds_path4 {ctx : Ctx} {sv sv' : SV} (h : sv'.bool "UrlFlag" = true) :
    there (env Cat.bdEsds ctx sv) (some cfoESDescriptor) sv'
      { name := "URLString", size := 8, lenDyn := true, optDyn := true, isString := true } = true := by
  have key : cfoESDescriptor.opt "URLString" ctx sv' = true := by simp [cfoESDescriptor, h]
  simp [there, instField, present, anyVersion, env, key]

theorem mem_Descriptors : (({ name := "Descriptors" } : Field), Ty.slice Cat.tyDescriptor) ∈ Cat.fsEsds.toList :=
  List.mem_cons_of_mem _ (List.mem_cons_self ..)
theorem mem_ESDescriptor : (({ name := "ESDescriptor", extend := true, optDyn := true } : Field), Ty.ptr Cat.tyESDescriptor) ∈
    Cat.fsDescriptor.toList :=
  List.mem_cons_of_mem _ (List.mem_cons_of_mem _ (List.mem_cons_self ..))
theorem mem_Tag : (({ name := "Tag", size := 8 } : Field), Ty.int 8) ∈ Cat.fsDescriptor.toList :=
  List.mem_cons_self ..
theorem nodup_Descriptor : Cat.fsDescriptor.names.Nodup := Fields.nodup_names _ (by decide)

/-- Esds.Descriptors.Data -/
theorem row39 : RowFacts Cat.bdEsds { box := "Esds", path := [("Descriptors", fun _ => true)], list := "Data", count := "Size", only := fun sv => number sv "Tag" != 3 && number sv "Tag" != 4 } := by
  intro ctx sv
  refine ⟨(some cfoDescriptor), Cat.fsDescriptor, { name := "Data", size := 8, optDyn := true, lenDyn := true }, (.uint 8),
      (.cons (c := (some Cfo.base)) (fs := Cat.fsEsds) (f := { name := "Descriptors" }) (t := (.slice Cat.tyDescriptor))
        (Fields.nodup_names Cat.fsEsds (by decide)) mem_Descriptors rfl (fun sv' _ _ _ => esds_path1)
      (.nil (c := (some cfoDescriptor)) (fs := Cat.fsDescriptor) nodup_Descriptor)),
      List.mem_cons_of_mem _ (List.mem_cons_of_mem _ (List.mem_cons_of_mem _ (List.mem_cons_of_mem _ (List.mem_cons_self ..)))), rfl, ?_⟩
  intro sub hs hty ho
  have k0 := (number_int nodup_Descriptor hty mem_Tag).1
  simp only at k0
  have kc := number_uint (g := { name := "Size", varint := true }) (w := 32) nodup_Descriptor hty
    (List.mem_cons_of_mem _ (List.mem_cons_self ..))
  simp only at kc
  simp only [k0, Bool.and_eq_true, bne_iff_ne] at ho
  refine ⟨esds_path3 ho.1 ho.2, Or.inl ?_⟩
  rw [kc]
  simp [tagOf, instField, cfoDescriptor]

/-- Esds.Descriptors.ESDescriptor.URLString -/
theorem row40 : RowFacts Cat.bdEsds { box := "Esds", path := [("Descriptors", fun _ => true), ("ESDescriptor", fun sv => number sv "Tag" == 3)], list := "URLString", count := "URLLength", only := fun sv => sv.bool "UrlFlag" } := by
  intro ctx sv
  refine ⟨(some cfoESDescriptor), Cat.fsESDescriptor, { name := "URLString", size := 8, lenDyn := true, optDyn := true, isString := true }, (.uint 8),
      (.cons (c := (some Cfo.base)) (fs := Cat.fsEsds) (f := { name := "Descriptors" }) (t := (.slice Cat.tyDescriptor))
        (Fields.nodup_names Cat.fsEsds (by decide)) mem_Descriptors rfl (fun sv' _ _ _ => esds_path1)
      (.cons (c := (some cfoDescriptor)) (fs := Cat.fsDescriptor) (f := { name := "ESDescriptor", extend := true, optDyn := true }) (t := (.ptr Cat.tyESDescriptor))
        nodup_Descriptor mem_ESDescriptor rfl ?_
      (.nil (c := (some cfoESDescriptor)) (fs := Cat.fsESDescriptor) (Fields.nodup_names Cat.fsESDescriptor (by decide))))),
      (by simp [Cat.fsESDescriptor, Fields.ofList, Fields.toList]), rfl, ?_⟩
  · intro sv' _ hty h
    have k0 := (number_int nodup_Descriptor hty mem_Tag).1
    simp only at k0
    simp only [k0, beq_iff_eq] at h
    exact esds_path2 h
  intro sub hs hty ho
  have kc := number_uint (g := { name := "URLLength", size := 8, optDyn := true }) (w := 8) (Fields.nodup_names Cat.fsESDescriptor (by decide)) hty (by simp [Cat.fsESDescriptor, Fields.ofList, Fields.toList])
  simp only at kc
  refine ⟨esds_path4 ho, Or.inl ?_⟩
  rw [kc]
  simp [tagOf, instField, cfoESDescriptor]


theorem rows_ok : ∀ row ∈ countedLists, ∃ bd ∈ Cat.allDefs, bd.goName = row.box ∧ RowFacts bd row := by
  simp only [countedLists, List.forall_mem_cons]
  refine ⟨⟨Cat.bdCo64, by simp [Cat.allDefs], rfl, row0⟩,
    ⟨Cat.bdCtts, by simp [Cat.allDefs], rfl, row1⟩,
    ⟨Cat.bdElst, by simp [Cat.allDefs], rfl, row2⟩,
    ⟨Cat.bdSaio, by simp [Cat.allDefs], rfl, row3⟩,
    ⟨Cat.bdSaio, by simp [Cat.allDefs], rfl, row4⟩,
    ⟨Cat.bdSaiz, by simp [Cat.allDefs], rfl, row5⟩,
    ⟨Cat.bdSbgp, by simp [Cat.allDefs], rfl, row6⟩,
    ⟨Cat.bdSidx, by simp [Cat.allDefs], rfl, row7⟩,
    ⟨Cat.bdStco, by simp [Cat.allDefs], rfl, row8⟩,
    ⟨Cat.bdStsc, by simp [Cat.allDefs], rfl, row9⟩,
    ⟨Cat.bdStss, by simp [Cat.allDefs], rfl, row10⟩,
    ⟨Cat.bdStsz, by simp [Cat.allDefs], rfl, row11⟩,
    ⟨Cat.bdStts, by simp [Cat.allDefs], rfl, row12⟩,
    ⟨Cat.bdTfra, by simp [Cat.allDefs], rfl, row13⟩,
    ⟨Cat.bdTrun, by simp [Cat.allDefs], rfl, row14⟩,
    ⟨Cat.bdPssh, by simp [Cat.allDefs], rfl, row15⟩,
    ⟨Cat.bdPssh, by simp [Cat.allDefs], rfl, row16⟩,
    ⟨Cat.bdTenc, by simp [Cat.allDefs], rfl, row17⟩,
    ⟨Cat.bdKeys, by simp [Cat.allDefs], rfl, row18⟩,
    ⟨Cat.bdKeys, by simp [Cat.allDefs], rfl, row19⟩,
    ⟨Cat.bdDOps, by simp [Cat.allDefs], rfl, row20⟩,
    ⟨Cat.bdVpcC, by simp [Cat.allDefs], rfl, row21⟩,
    ⟨Cat.bdHvcC, by simp [Cat.allDefs], rfl, row22⟩,
    ⟨Cat.bdHvcC, by simp [Cat.allDefs], rfl, row23⟩,
    ⟨Cat.bdHvcC, by simp [Cat.allDefs], rfl, row24⟩,
    ⟨Cat.bdAVCDecoderConfiguration, by simp [Cat.allDefs], rfl, row25⟩,
    ⟨Cat.bdAVCDecoderConfiguration, by simp [Cat.allDefs], rfl, row26⟩,
    ⟨Cat.bdAVCDecoderConfiguration, by simp [Cat.allDefs], rfl, row27⟩,
    ⟨Cat.bdAVCDecoderConfiguration, by simp [Cat.allDefs], rfl, row28⟩,
    ⟨Cat.bdAVCDecoderConfiguration, by simp [Cat.allDefs], rfl, row29⟩,
    ⟨Cat.bdAVCDecoderConfiguration, by simp [Cat.allDefs], rfl, row30⟩,
    ⟨Cat.bdSgpd, by simp [Cat.allDefs], rfl, row31⟩,
    ⟨Cat.bdSgpd, by simp [Cat.allDefs], rfl, row32⟩,
    ⟨Cat.bdSgpd, by simp [Cat.allDefs], rfl, row33⟩,
    ⟨Cat.bdSgpd, by simp [Cat.allDefs], rfl, row34⟩,
    ⟨Cat.bdSgpd, by simp [Cat.allDefs], rfl, row35⟩,
    ⟨Cat.bdSgpd, by simp [Cat.allDefs], rfl, row36⟩,
    ⟨Cat.bdSgpd, by simp [Cat.allDefs], rfl, row37⟩,
    ⟨Cat.bdSgpd, by simp [Cat.allDefs], rfl, row38⟩,
    ⟨Cat.bdEsds, by simp [Cat.allDefs], rfl, row39⟩,
    ⟨Cat.bdEsds, by simp [Cat.allDefs], rfl, row40⟩, by simp⟩

end Mp4
