import Verif.Lemmas.EditParts

/-!
# Lemmas about `mp4tool edit`: the bytes
-/

namespace Mp4

open Mp4.Edit

section
variable {d : Bytes}

/-- a row of boxes takes up the space that it has -/
theorem wf_bytes : ∀ (T : Forest) (isRoot : Bool) (path : List BoxType) (ctx : Ctx) (pos total : Nat),
    T.WF d isRoot path ctx pos total → if isRoot then pos + T.bytes = d.length else T.bytes ≤ total := by
  intro T
  induction T with
  | nil =>
    intro isRoot path ctx pos total h
    simp only [Forest.WF] at h
    cases isRoot with
    | true => simpa [Forest.bytes] using h
    | false => simp [Forest.bytes]
  | leaf bi rest ih =>
    intro isRoot path ctx pos total ⟨hp, h⟩
    have := ih _ _ _ _ _ h
    cases isRoot with
    | true => simp only [Forest.bytes, if_true] at *; omega
    | false =>
      have h2 := hp.inParent
      simp only [Forest.bytes, Bool.false_eq_true, if_false, false_or] at *
      omega
  | node bi n kids rest ihk ih =>
    intro isRoot path ctx pos total ⟨hp, _, _, h⟩
    have := ih _ _ _ _ _ h
    cases isRoot with
    | true => simp only [Forest.bytes, if_true] at *; omega
    | false =>
      have h2 := hp.inParent
      simp only [Forest.bytes, Bool.false_eq_true, if_false, false_or] at *
      omega

theorem sub64_header {bi : BoxInfo} (h1 : bi.headerSize ≤ bi.size) (h2 : bi.size < U64) :
    sub64 bi.size bi.headerSize = bi.size - bi.headerSize := by
  unfold sub64
  simp only [U64] at *
  omega

/-- the fields written -/
theorem fields_edited (hd : d.length ≤ maxAlloc) {isRoot : Bool} {path : List BoxType} {ctx : Ctx} {pos total : Nat} {bi : BoxInfo}
    (hp : Forest.Placed d isRoot path ctx pos total bi) {n : Nat} (hn : PayloadN d bi n) (hc : Forest.Canonical d bi n)
    (time : Option Nat) (ht : ∀ t, time = some t → t < uNoValue) (names : List Bytes) :
    marshalBox (editedBox d ⟨time.getD uNoValue, names⟩ bi).1 memSink bi.ctx (editedBox d ⟨time.getD uNoValue, names⟩ bi).2 [] =
      (.ok n, newFields d time bi n) ∧ (newFields d time bi n).length = n := by
  obtain ⟨hh, hb⟩ := placed_header hd hp
  obtain ⟨box, p, hu, hbd, hsv, hbd'⟩ := editedBox_of (cfg := ⟨time.getD uNoValue, names⟩) hn
  have hlen := payloadN_bound hd hb.inside hn
  have hfl : (fieldBytes d bi n).length = n := by
    unfold fieldBytes
    rw [List.length_take, List.length_drop]
    omega
  have hs := sub64_header hp.whole hb.lt
  have hcan := hc box p (by rw [← hs]; exact hu)
  rw [← hbd']
  have plain : editFields ⟨time.getD uNoValue, names⟩ bi.type box = some box.sv → newFields d time bi n = fieldBytes d bi n →
      marshalBox box.bd memSink bi.ctx (editedBox d ⟨time.getD uNoValue, names⟩ bi).2 [] =
      (.ok n, newFields d time bi n) ∧ (newFields d time bi n).length = n := by
    intro h1 h2
    rw [hsv] at h1
    rw [Option.some.inj h1, h2]
    exact ⟨hcan, hfl⟩
  by_cases htt : bi.type = tTfdt
  · have hbx : box.bd = Cat.bdTfdt := by
      rw [htt, std_tfdt] at hbd
      exact (Option.some.inj hbd).symm
    have has : box.assert "Tfdt" = some box.sv := by
      unfold BoxVal.assert
      rw [hbx]
      exact if_pos rfl
    cases time with
    | none =>
      refine plain ?_ rfl
      unfold editFields
      rw [if_pos htt, has]
      rfl
    | some t =>
      have hne : t ≠ uNoValue := Nat.ne_of_lt (ht t rfl)
      unfold editFields at hsv
      rw [if_pos htt, has, Option.map_some, Option.getD_some, if_pos hne] at hsv
      rw [show (editedBox d ⟨(some t).getD uNoValue, names⟩ bi).2 = _ from (Option.some.inj hsv).symm, hbx]
      unfold BoxMap.unmarshalAny BoxMap.new at hu
      rw [htt, std_tfdt] at hu
      simp only at hu
      split at hu
      · rename_i m sv q hq
        cases hu
        have he := tfdt_edited (show d.length ≤ 2 ^ 48 from hd) hb.inside hq t
        have hfn : newFields d (some t) bi n = ((d.drop (bi.offset + bi.headerSize)).take n).take 4 ++ Form.bigEndian (n - 4) t := by
          unfold newFields
          exact if_pos htt
        rw [hfn]
        refine ⟨he, ?_⟩
        have h4 : 4 ≤ n := tfdt_four (show d.length ≤ 2 ^ 48 from hd) hb.inside hq
        unfold fieldBytes at hfl
        rw [List.length_append, List.length_take, hfl, bigEndian_length]
        omega
      · cases hu
      · cases hu
      · cases hu
  · refine plain ?_ ?_
    · unfold editFields
      rw [if_neg htt]
    · unfold newFields
      cases time with
      | none => rfl
      | some t => exact if_neg htt

theorem form_small {bi : BoxInfo} (h : Form.of bi = .small) : bi.size < 2 ^ 32 := by
  unfold Form.of at h
  split at h
  · cases h
  · split at h
    · cases h
    · omega

/-- the bytes of the calls that the command makes -/
theorem tree_edited (hd : d.length ≤ maxAlloc) (time : Option Nat) (ht : ∀ t, time = some t → t < uNoValue) (names : List Bytes)
    (drop : BoxType → Prop) [DecidablePred drop] (hx : ∀ t, exists_ names t.toStr = decide (drop t)) :
    ∀ (T : Forest) (isRoot : Bool) (path : List BoxType) (ctx : Ctx) (pos total : Nat),
    T.WF d isRoot path ctx pos total → T.Editable d drop →
    EditLeaves ⟨time.getD uNoValue, names⟩ T ∧ (editTree d ⟨time.getD uNoValue, names⟩ T).Fits ∧
    (editTree d ⟨time.getD uNoValue, names⟩ T).ser = T.edited d drop (newFields d time) ∧
    (T.edited d drop (newFields d time)).length ≤ T.bytes := by
  have hd63 : d.length < 2 ^ 63 := by simp only [maxAlloc] at hd; omega
  intro T
  induction T with
  | nil => intro _ _ _ _ _ _ _; exact ⟨trivial, trivial, rfl, Nat.le_refl _⟩
  | leaf bi rest ih =>
    intro isRoot path ctx pos total ⟨hp, hw⟩ ⟨he, her⟩
    obtain ⟨h1, h2, h3, h4⟩ := ih _ _ _ _ _ hw her
    simp only [EditLeaves, editTree, Forest.edited, Forest.bytes, hx, decide_eq_true_eq]
    by_cases hq : drop bi.type
    · simp only [if_pos hq, List.nil_append]
      exact ⟨⟨.inl hq, h1⟩, h2, h3, by omega⟩
    · simp only [if_neg hq]
      refine ⟨⟨.inr (he hq), h1⟩, ⟨by rw [hp.offset]; exact hp.inFile, hd63, h2⟩, ?_, ?_⟩
      · simp only [WTree.ser, h3]
        rfl
      · rw [List.length_append]
        have : (boxBytes d bi).length ≤ bi.size := by unfold boxBytes; rw [List.length_take]; omega
        omega
  | node bi n kids rest ihk ih =>
    intro isRoot path ctx pos total ⟨hp, hn, hwk, hw⟩ ⟨he, her⟩
    obtain ⟨h1, h2, h3, h4⟩ := ih _ _ _ _ _ hw her
    simp only [EditLeaves, editTree, Forest.edited, Forest.bytes, hx, decide_eq_true_eq, decide_eq_false_iff_not]
    by_cases hq : drop bi.type
    · simp only [if_pos hq, List.nil_append]
      exact ⟨⟨fun h => absurd hq h, h1⟩, h2, h3, by omega⟩
    · simp only [if_neg hq]
      by_cases hm : bi.type = tMdat
      · rw [if_pos hm, if_pos (show bi.type = ⟨0x6d, 0x64, 0x61, 0x74⟩ from hm)]
        refine ⟨⟨fun _ h => absurd hm h, h1⟩, ⟨by rw [hp.offset]; exact hp.inFile, hd63, h2⟩, ?_, ?_⟩
        · simp only [WTree.ser, h3]
          rfl
        · rw [List.length_append]
          have : (boxBytes d bi).length ≤ bi.size := by unfold boxBytes; rw [List.length_take]; omega
          omega
      · rw [if_neg hm, if_neg (show ¬ bi.type = ⟨0x6d, 0x64, 0x61, 0x74⟩ from hm)]
        obtain ⟨hc, hek⟩ := he hq hm
        obtain ⟨k1, k2, k3, k4⟩ := ihk _ _ _ _ _ hwk hek
        obtain ⟨f1, f2⟩ := fields_edited hd hp hn hc time ht names
        obtain ⟨hh, hb⟩ := placed_header hd hp
        have hlen := payloadN_bound hd hb.inside hn
        rw [sub64_header hp.whole hb.lt] at hlen
        have hkb : kids.bytes ≤ bi.size - bi.headerSize - n := by simpa using wf_bytes kids false _ _ _ _ hwk
        have hform := (header_written hb.iso).1
        have hwhole := hp.whole
        have hbody : ((newFields d time bi n) ++ kids.edited d drop (newFields d time)).length ≤ bi.size - bi.headerSize := by
          rw [List.length_append, f2]
          omega
        refine ⟨⟨fun _ _ => k1, h1⟩, ⟨?_, ⟨⟨n, by rw [f1]⟩, k2⟩, h2⟩, ?_, ?_⟩
        · intro hs
          have h8 : (Form.of bi).len = 8 := by rw [hs]; rfl
          have := form_small hs
          simp only [WTree.ser, f1, k3]
          omega
        · simp only [WTree.ser, f1, k3, h3, List.append_assoc]
        · rw [List.length_append, List.length_append, Form.header_length]
          omega

end
end Mp4
