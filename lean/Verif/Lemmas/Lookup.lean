import Verif.Model.Read
import Verif.Lemmas.SafeUnmarshal
import Verif.Lemmas.BoxInfo

/-! # Lookup in the library's own registry, `UnmarshalAny` -/

namespace Mp4

open Mp4 Mp4.Spec

/-- index of the definition of each registration -/
private def regIdx : List Nat := [0, 0, 0, 0, 0, 0, 1, 2, 3, 4, 5, 6, 7, 8, 9, 10, 11, 12, 13, 14, 15, 16, 17, 18, 19, 20, 21,
  22, 23, 24, 25, 26, 27, 28, 29, 30, 31, 32, 33, 34, 35, 36, 37, 38, 1, 1, 1, 1, 1, 3, 3, 39, 40, 41, 42, 43, 44, 45, 46,
  47, 48, 49, 50, 51, 52, 53, 54, 55, 56, 57, 58, 59, 60, 61, 62, 63, 64, 65, 66, 67, 68, 69, 70, 71, 72, 73, 74, 75, 76,
  77, 78, 79, 80, 81, 82, 3, 3, 83, 84, 85, 86, 87, 88, 88, 88, 88, 88, 88, 88, 88, 88, 88, 88, 88, 88, 88, 88, 88, 88, 88,
  88, 88, 88, 88, 88, 88, 88, 88, 88, 88, 88, 88, 88, 88, 88, 88, 88, 88, 88, 88, 88, 88, 88, 88, 88, 88, 88, 88, 89, 89,
  90, 3, 91, 1, 1, 92]

private theorem registry_idx : Cat.registry.map (·.2) = regIdx.map (fun i => Cat.allDefs.getD i Cat.bdItem) := (rfl)

/-- Every registered definition is in the catalogue. -/
theorem registry_mem {r : BoxType × BoxDef} (h : r ∈ Cat.registry) : r.2 ∈ Cat.allDefs := by
  have h1 : r.2 ∈ Cat.registry.map (·.2) := List.mem_map_of_mem h
  rw [registry_idx] at h1
  obtain ⟨i, hi, he⟩ := List.mem_map.1 h1
  rw [← he]
  have hall : ∀ i ∈ regIdx, i < Cat.allDefs.length := by decide +kernel
  have hlt := hall i hi
  rw [List.getD_eq_getElem?_getD, List.getElem?_eq_getElem hlt]
  exact List.getElem_mem _

theorem bdItem_mem : Cat.bdItem ∈ Cat.allDefs := by simp [Cat.allDefs]

theorem defLoop_mem {l : List BoxDef} {ctx : Ctx} {bd : BoxDef} : ∀ {n}, defLoop l ctx n = some bd → bd ∈ l
  | 0, h => by cases h
  | n + 1, h => by
    unfold defLoop at h
    split at h
    · cases h
    · next x hx =>
      split at h
      · cases h; exact List.mem_of_getElem? hx
      · exact defLoop_mem h

theorem ofRegs_mem {regs : List (BoxType × BoxDef)} {t : BoxType} {bd : BoxDef} (h : bd ∈ BoxMap.ofRegs regs t) :
    (t, bd) ∈ regs := by
  have key : ∀ (l : List (BoxType × BoxDef)) (m : BoxMap), bd ∈ l.foldl (fun m r => m.add r.1 r.2) m t →
      bd ∈ m t ∨ (t, bd) ∈ l := by
    intro l
    induction l with
    | nil => intro m h; exact .inl h
    | cons r l ih =>
      intro m h
      rcases ih _ h with h | h
      · simp only [BoxMap.add] at h
        split at h
        · next ht =>
          rcases List.mem_append.1 h with h | h
          · exact .inl h
          · right; rw [List.mem_singleton.1 h, ht]; exact List.mem_cons_self
        · exact .inl h
      · exact .inr (List.mem_cons_of_mem _ h)
  rcases key _ _ h with h | h
  · cases h
  · exact h

/-- What the library finds is in the catalogue. -/
theorem std_mem {t : BoxType} {ctx : Ctx} {bd : BoxDef} (h : BoxMap.std.getBoxDef t ctx = some bd) :
    bd ∈ Cat.allDefs := by
  unfold BoxMap.getBoxDef at h
  split at h
  · next x hx =>
    cases h
    exact registry_mem (ofRegs_mem (defLoop_mem hx))
  · split at h
    · simp only at h
      split at h
      · cases h; exact bdItem_mem
      · cases h
    · cases h

/-- `ftyp` and `keys` are found in every context. -/
theorem std_ftyp : (BoxMap.std tFtyp).map (fun bd => (bd.goName, bd.target.isNone)) = [("Ftyp", true)] := by
  decide +kernel
theorem std_keys : (BoxMap.std tKeys).map (fun bd => (bd.goName, bd.target.isNone)) = [("Keys", true)] := by
  decide +kernel

theorem lookup_single {m : BoxMap} {t : BoxType} {name : String}
    (h : (m t).map (fun bd => (bd.goName, bd.target.isNone)) = [(name, true)]) (ctx : Ctx) :
    ∃ bd, m.getBoxDef t ctx = some bd ∧ bd.goName = name := by
  cases hl : m t with
  | nil => rw [hl] at h; cases h
  | cons bd l =>
    cases l with
    | cons b l => rw [hl] at h; simp at h
    | nil =>
      rw [hl] at h
      simp only [List.map_cons, List.map_nil, List.cons.injEq, Prod.mk.injEq, and_true] at h
      refine ⟨bd, ?_, h.1⟩
      unfold BoxMap.getBoxDef
      rw [hl]
      simp only [List.length_cons, List.length_nil]
      rw [defLoop]
      simp only [List.getElem?_cons_zero]
      rw [if_pos]
      unfold BoxDef.isFor
      rw [Option.isNone_iff_eq_none.1 h.2]

/-- What is known about a run of `UnmarshalAny`. -/
def AnyPost (d : Bytes) (pos ps : Nat) (t : BoxType) (ctx : Ctx) : Out (BoxVal × Nat) × Nat → Prop
  | (.ok (box, n), pos') => n ≤ ps ∧ pos' = pos + n ∧ pos' ≤ d.length ∧ box.type = t ∧
      BoxMap.std.getBoxDef t ctx = some box.bd ∧ typedFields box.bd.fields box.sv = true
  | (.err _, _) => True
  | (.panic, _) => False
  | (.hang, _) => (∃ bd, BoxMap.std.getBoxDef t ctx = some bd ∧ bd.goName = "Trun") ∧
      (d.drop (pos + 4)).take 4 = [0xff#8, 0xff#8, 0xff#8, 0xff#8]

theorem unmarshalAny_post {d : Bytes} (hd : d.length ≤ maxAlloc) {pos : Nat} (hpos : pos ≤ d.length) (t : BoxType)
    (ctx : Ctx) (ps : Nat) : AnyPost d pos ps t ctx (BoxMap.std.unmarshalAny d t ps ctx pos) := by
  unfold BoxMap.unmarshalAny BoxMap.new
  cases hl : BoxMap.std.getBoxDef t ctx with
  | none => trivial
  | some bd =>
    simp only
    have hbd := std_mem hl
    have hp := unmarshalBox_post hbd hd hpos ctx ps (zero_typedFields bd.fields)
    cases hr : unmarshalBox bd d ctx ps bd.fields.zero pos with
    | mk o p =>
      rw [hr] at hp
      match o, hp with
      | .ok (n, sv), hp => exact ⟨hp.1, hp.2.1, hp.2.2.1, rfl, hl, hp.2.2.2.1⟩
      | .err e, _ => trivial
      | .hang, hp =>
        have hp : ¬ Ends bd d pos := hp
        unfold Ends at hp
        refine ⟨⟨bd, hl, ?_⟩, ?_⟩
        · exact Classical.byContradiction fun h => hp fun h' => absurd h' h
        · exact Classical.byContradiction fun h => hp fun _ => h

end Mp4
