import Verif.Props.ExtractBeside
import Verif.Props.Concat

/-!
# C84: `Probe` of a file that is still growing
-/

namespace Mp4.Props

open Mp4 Mp4.Cut Mp4.Spec

variable {S P V α β : Type} {d : Bytes} {n : Nat}

/-- the boxes for which the handler of `ExtractBoxes` below a box is called -/
def visitedBelow (d : Bytes) (fuel : Nat) (bi : BoxInfo) (paths : List (List BoxType)) : List BoxInfo :=
  (enters (readBoxStructureFrom BoxMap.std d (extractHandler true paths) fuel bi () ⟨0, [], []⟩).2.log).map (·.2.2)

/-- The boxes that `Probe` looks at: those it passes when it looks for `ftyp`, `moov`, `mvhd`, `trak`, `moof` and `mdat`, and those it passes below each `trak` and `moof`. -/
def probeSees (d : Bytes) (fuel : Nat) : List BoxInfo :=
  (enters (extractCalls d fuel probePaths)).map (·.2.2) ++ (extractBoxesBeside BoxMap.std d fuel none probePaths 0).1.flatMap fun b =>
    if b.type = tTrak then visitedBelow d fuel b trakPaths else if b.type = tMoof then visitedBelow d fuel b moofPaths else []

namespace CutProbe

/-- what succeeds on the part succeeds on the whole with the same value, wherever the readers are -/
def OkTo (ms ml : PM α) : Prop := ∀ p q r p', ms p = (.ok r, p') → ∃ q', ml q = (.ok r, q')

theorem OkTo.pure (a : α) : OkTo (pure a : PM α) (pure a) := fun p q r p' h => by cases h; exact ⟨q, rfl⟩

theorem OkTo.bind {ms ml : PM α} {fs fl : α → PM β} (h : OkTo ms ml) (hf : ∀ a, (∃ p p', ms p = (.ok a, p')) → OkTo (fs a) (fl a)) : OkTo (ms >>= fs) (ml >>= fl) := by
  intro p q r p' e
  obtain ⟨a, p1, e1, e2⟩ := bind_ok_inv e
  obtain ⟨q1, g1⟩ := h p q a p1 e1
  obtain ⟨q2, g2⟩ := hf a ⟨p, p1, e1⟩ p1 q1 r p' e2
  exact ⟨q2, by rw [M.bind_ok g1]; exact g2⟩

theorem OkTo.out (x : Out α) : OkTo (ofOut x : PM α) (ofOut x) := fun p q r p' h => by cases h; exact ⟨q, rfl⟩

theorem OkTo.orPanic (x : Option α) : OkTo (orPanic x : PM α) (orPanic x) := by
  cases x with
  | none => intro p q r p' h; cases h
  | some a => exact OkTo.pure a

theorem seek_okTo (hd : d.length ≤ maxAlloc) {bi : BoxInfo} (hb : bi.offset + bi.headerSize ≤ d.length) {fs fl : PM β} 
    (hf : ∀ r p', fs (bi.offset + bi.headerSize) = (.ok r, p') → ∃ q', fl (bi.offset + bi.headerSize) = (.ok r, q')) :
    OkTo (bi.seekToPayload >>= fun _ => fs) (bi.seekToPayload >>= fun _ => fl) := by
  intro p q r p' h
  rw [M.bind_ok (seekToPayload_ok hd (by omega) p)] at h
  rw [M.bind_ok (seekToPayload_ok hd (by omega) q)]
  exact hf r p' h

theorem unmarshalBox_part (hn : n ≤ d.length) (hd : d.length ≤ maxAlloc) {bd : BoxDef} (hbd : bd ∈ Cat.allDefs) {pos : Nat} (hp : pos ≤ n) (ps : Nat) (ctx : Ctx)
    {r : Nat × SV} {q : Nat} (h : unmarshalBox bd (d.take n) ctx ps bd.fields.zero pos = (.ok r, q)) :
    unmarshalBox bd d ctx ps bd.fields.zero pos = (.ok r, q) := by
  have hl : (d.take n).length = n := by rw [List.length_take]; omega
  have hpost := unmarshalBox_post hbd (d := d.take n) (by omega) (pos := pos) (by omega) ctx ps (zero_typedFields _)
  rw [h] at hpost
  have hq : q ≤ (d.take n).length := hpost.2.2.1
  exact box_sim hbd (agree_take hn hd) ctx ps bd.fields.zero (fun _ => by omega) h (by omega)

theorem unmarshalAt_okTo (hn : n ≤ d.length) (hd : d.length ≤ maxAlloc) {bd : BoxDef} (hbd : bd ∈ Cat.allDefs) {bi : BoxInfo} (hb : bi.offset + bi.headerSize ≤ n) :
    OkTo (unmarshalAt (d.take n) bd bi) (unmarshalAt d bd bi) := by
  unfold unmarshalAt
  refine seek_okTo hd (by omega) fun r p' h => ?_
  obtain ⟨a, p1, e1, h⟩ := bind_ok_inv h
  exact ⟨p', by rw [M.bind_ok (unmarshalBox_part hn hd hbd hb _ _ e1)]; exact h⟩

theorem decodeAll_okTo (hn : n ≤ d.length) (hd : d.length ≤ maxAlloc) (ctx : Ctx) : ∀ l : List BoxInfo, (∀ b ∈ l, b.offset + b.headerSize ≤ n) →
    OkTo (decodeAll BoxMap.std (d.take n) ctx l) (decodeAll BoxMap.std d ctx l)
  | [], _ => OkTo.pure _
  | b :: l, hb => by
    have h1 := hb b List.mem_cons_self
    unfold decodeAll
    refine seek_okTo hd (by omega) fun r p' h => ?_
    obtain ⟨⟨box, k⟩, p1, e1, h⟩ := bind_ok_inv h
    have e2 : BoxMap.std.unmarshalAny d b.type (sub64 b.size b.headerSize) ctx (b.offset + b.headerSize) = (.ok (box, k), p1) := by
      rcases pcut_any hn hd h1 b.type (sub64 b.size b.headerSize) ctx with e | ⟨x, e⟩ | e
      · rw [← e]; exact e1
      · rw [e1] at e; cases e
      · rw [e1] at e; cases e
    rw [M.bind_ok e2]
    exact OkTo.bind (decodeAll_okTo hn hd ctx l fun b hb' => hb b (List.mem_cons_of_mem _ hb')) (fun a _ => OkTo.pure _) p1 p1 r p' h

theorem from_pos (m : BoxMap) (hd : d.length ≤ maxAlloc) (fuel : Nat) {bi : BoxInfo} (hb : bi.offset + bi.headerSize ≤ d.length) (paths : List (List BoxType)) (p q : Nat) :
    readBoxStructureFrom m d (extractHandler true paths) fuel bi () ⟨p, [], []⟩ = readBoxStructureFrom m d (extractHandler true paths) fuel bi () ⟨q, [], []⟩ := by
  have hs : ∀ (s : List BoxInfo) (l : List (Ev Unit)) p, liftP bi.seekToPayload (⟨p, s, l⟩ : TSt (List BoxInfo) Unit) = (.ok (bi.offset + bi.headerSize), ⟨bi.offset + bi.headerSize, s, l⟩) := by
    intro s l p
    unfold liftP
    rw [seekToPayload_ok hd (by omega)]
  unfold readBoxStructureFrom fromInternal
  rw [M.bind_ok (hs _ _ p), M.bind_ok (hs _ _ _)]

theorem extractBoxes_pos (m : BoxMap) (hd : d.length ≤ maxAlloc) (fuel : Nat) {bi : BoxInfo} (hb : bi.offset + bi.headerSize ≤ d.length) {paths : List (List BoxType)} (h0 : paths ≠ [])
    (h1 : ¬ paths.any (fun p => p.length == 0)) (p q : Nat) : extractBoxes m d fuel (some bi) paths p = extractBoxes m d fuel (some bi) paths q := by
  unfold extractBoxes
  rw [if_neg h0, if_neg h0, if_neg h1, if_neg h1]
  simp only [from_pos m hd fuel hb paths p q]

theorem real_of_leads {start : Option BoxInfo} {path : List BoxType} {b : BoxInfo} (h : Leads d start path b) : Real d b := by
  cases h with
  | first hc => exact hc.real
  | down _ hc => exact hc.real

theorem payloads_okTo (hn : n ≤ d.length) (hd : d.length ≤ 2 ^ 48) (fuel : Nat) {path : List BoxType} {bi : BoxInfo} (hl : Leads (d.take n) none path bi)
    {paths : List (List BoxType)} (h0 : paths ≠ []) (h1 : ¬ paths.any (fun p => p.length == 0))
    (ho : ∀ b ∈ visitedBelow (d.take n) fuel bi paths, b.extendToEOF = false) :
    OkTo (extractBoxesWithPayload BoxMap.std (d.take n) fuel (some bi) paths) (extractBoxesWithPayload BoxMap.std d fuel (some bi) paths) := by
  have hlen : (d.take n).length = n := by rw [List.length_take]; omega
  have hin : ∀ {b}, Real (d.take n) b → b.offset + b.headerSize ≤ n := fun hr => by
    have := (header_of_real (by omega) hr).inside
    omega
  have hb := hin (real_of_leads hl)
  unfold extractBoxesWithPayload
  refine OkTo.bind ?_ ?_
  · intro p q r p' h
    have := part_extract_below hn hd fuel hb paths p (by
      intro x hx
      rw [from_pos BoxMap.std (by simp only [maxAlloc]; omega) fuel (by omega) paths p 0] at hx
      exact ho _ (List.mem_map.2 ⟨x, hx, rfl⟩)) h
    exact ⟨p', by rw [← this]; exact extractBoxes_pos _ hd fuel (by omega) h0 h1 _ _⟩
  · rintro ⟨bis, par⟩ ⟨p, p', e⟩
    have hs := ((extract_below_sound (by omega) fuel bi (real_of_leads hl) paths p).2 _ _ _ e).2
    refine decodeAll_okTo hn hd _ bis fun b hb => ?_
    obtain ⟨_, hp, -⟩ := hs b hb
    exact hin (real_of_leads hp)

theorem probeOne_okTo (hn : n ≤ d.length) (hd : d.length ≤ 2 ^ 48) (fuel : Nat) {path : List BoxType} {bi : BoxInfo} (hl : Leads (d.take n) none path bi)
    (ht : bi.type = tTrak → ∀ b ∈ visitedBelow (d.take n) fuel bi trakPaths, b.extendToEOF = false)
    (hm : bi.type = tMoof → ∀ b ∈ visitedBelow (d.take n) fuel bi moofPaths, b.extendToEOF = false)
    (seen : Bool) (info : ProbeInfo) : OkTo (probeOne BoxMap.std (d.take n) fuel bi seen info) (probeOne BoxMap.std d fuel bi seen info) := by
  have hlen : (d.take n).length = n := by rw [List.length_take]; omega
  have hb : bi.offset + bi.headerSize ≤ n := by
    have := (header_of_real (by omega) (real_of_leads hl)).inside
    omega
  unfold probeOne
  split
  · exact OkTo.bind (unmarshalAt_okTo hn hd (by simp [Cat.allDefs]) hb) fun _ _ => OkTo.pure _
  split
  · exact OkTo.pure _
  split
  · exact OkTo.bind (unmarshalAt_okTo hn hd (by simp [Cat.allDefs]) hb) fun _ _ => OkTo.pure _
  split
  next h =>
    refine OkTo.bind ?_ fun _ _ => OkTo.pure _
    unfold probeTrak
    exact OkTo.bind (payloads_okTo hn hd fuel hl (by decide) (by decide) (ht h)) fun _ _ => OkTo.bind (OkTo.orPanic _) fun _ _ => OkTo.out _
  split
  next h =>
    refine OkTo.bind ?_ fun _ _ => OkTo.pure _
    unfold probeMoof
    exact OkTo.bind (payloads_okTo hn hd fuel hl (by decide) (by decide) (hm h)) fun _ _ => OkTo.bind (OkTo.orPanic _) fun _ _ => OkTo.out _
  split
  · exact OkTo.pure _
  · exact OkTo.pure _

/-- one round adds to the tracks and the segments -/
theorem probeOne_adds {m : BoxMap} {d : Bytes} {fuel : Nat} {bi : BoxInfo} {seen : Bool} {info : ProbeInfo} {p : Nat} {r : Bool × ProbeInfo} {p' : Nat}
    (h : probeOne m d fuel bi seen info p = (.ok r, p')) : info.tracks <+: r.2.tracks ∧ info.segments <+: r.2.segments ∧
    (bi.type = tMoof ∨ bi.type = tMdat → r.2 = { info with segments := r.2.segments }) := by
  unfold probeOne at h
  split at h
  next ht => obtain ⟨a, p1, -, h⟩ := bind_ok_inv h; cases h; exact ⟨List.prefix_refl _, List.prefix_refl _, by rw [ht]; exact fun h => absurd h (by decide)⟩
  split at h
  next ht => cases h; exact ⟨List.prefix_refl _, List.prefix_refl _, by rw [ht]; exact fun h => absurd h (by decide)⟩
  split at h
  next ht => obtain ⟨a, p1, -, h⟩ := bind_ok_inv h; cases h; exact ⟨List.prefix_refl _, List.prefix_refl _, by rw [ht]; exact fun h => absurd h (by decide)⟩
  split at h
  next ht => obtain ⟨a, p1, -, h⟩ := bind_ok_inv h; cases h; exact ⟨List.prefix_append _ _, List.prefix_refl _, by rw [ht]; exact fun h => absurd h (by decide)⟩
  split at h
  · obtain ⟨a, p1, -, h⟩ := bind_ok_inv h; cases h; exact ⟨List.prefix_refl _, List.prefix_append _ _, fun _ => rfl⟩
  split at h
  · cases h; exact ⟨List.prefix_refl _, List.prefix_refl _, fun _ => rfl⟩
  · cases h; exact ⟨List.prefix_refl _, List.prefix_refl _, fun _ => rfl⟩

theorem probeLoop_adds {m : BoxMap} {d : Bytes} {fuel : Nat} : ∀ {l : List BoxInfo} {seen : Bool} {info : ProbeInfo} {p : Nat} {r : ProbeInfo} {p' : Nat},
    probeLoop m d fuel l seen info p = (.ok r, p') → info.tracks <+: r.tracks ∧ info.segments <+: r.segments ∧
    ((∀ b ∈ l, b.type = tMoof ∨ b.type = tMdat) → r = { info with segments := r.segments })
  | [], seen, info, p, r, p', h => by cases h; exact ⟨List.prefix_refl _, List.prefix_refl _, fun _ => rfl⟩
  | b :: l, seen, info, p, r, p', h => by
    unfold probeLoop at h
    obtain ⟨⟨s, i⟩, p1, e, h⟩ := bind_ok_inv h
    obtain ⟨a1, a2, a3⟩ := probeOne_adds e
    obtain ⟨b1, b2, b3⟩ := probeLoop_adds h
    refine ⟨a1.trans b1, a2.trans b2, fun hl => ?_⟩
    have h3 := b3 fun b hb => hl b (List.mem_cons_of_mem _ hb)
    have h4 : i = { info with segments := i.segments } := a3 (hl b List.mem_cons_self)
    rw [h3, h4]

theorem probeLoop_part (hn : n ≤ d.length) (hd : d.length ≤ 2 ^ 48) (fuel : Nat) (t : List BoxInfo) : ∀ (l : List BoxInfo) (seen : Bool) (info : ProbeInfo) (p q : Nat)
    (i j : ProbeInfo) (p' q' : Nat), (∀ b ∈ l, (∃ path, Leads (d.take n) none path b) ∧
      (b.type = tTrak → ∀ c ∈ visitedBelow (d.take n) fuel b trakPaths, c.extendToEOF = false) ∧
      (b.type = tMoof → ∀ c ∈ visitedBelow (d.take n) fuel b moofPaths, c.extendToEOF = false)) → probeLoop BoxMap.std (d.take n) fuel l seen info p = (.ok i, p') →
    probeLoop BoxMap.std d fuel (l ++ t) seen info q = (.ok j, q') → i.tracks <+: j.tracks ∧ i.segments <+: j.segments ∧
    ((∀ b ∈ t, b.type = tMoof ∨ b.type = tMdat) → j = { i with segments := j.segments })
  | [], seen, info, p, q, i, j, p', q', hl, h, h' => by cases h; exact probeLoop_adds h'
  | b :: l, seen, info, p, q, i, j, p', q', hl, h, h' => by
    rw [List.cons_append] at h'
    unfold probeLoop at h h'
    obtain ⟨r, p1, e, h⟩ := bind_ok_inv h
    obtain ⟨⟨path, hb⟩, h1, h2⟩ := hl b List.mem_cons_self
    obtain ⟨q1, e'⟩ := probeOne_okTo hn hd fuel hb h1 h2 seen info p q r p1 e
    rw [M.bind_ok e'] at h'
    exact probeLoop_part hn hd fuel t l r.1 r.2 p1 q1 i j p' q' (fun b hb => hl b (List.mem_cons_of_mem _ hb)) h h'

end CutProbe

open CutProbe

theorem extract_root_pos (m : BoxMap) (d : Bytes) (fuel : Nat) (p q : Nat) : extractBoxes m d fuel none probePaths p = extractBoxes m d fuel none probePaths q := rfl

theorem part_probe_all (hn : n ≤ d.length) (hd : d.length ≤ 2 ^ 48) (fuel : Nat) (ho : ∀ b ∈ probeSees (d.take n) fuel, b.extendToEOF = false)
    {p q : Nat} {i j : ProbeInfo} {p' q' : Nat}
    (h : probe BoxMap.std (d.take n) fuel p = (.ok i, p')) (h' : probe BoxMap.std d fuel q = (.ok j, q')) : i.tracks <+: j.tracks ∧ i.segments <+: j.segments ∧
    ∀ l l', (extractBoxes BoxMap.std (d.take n) fuel none probePaths 0).1 = .ok (l, none) → (extractBoxes BoxMap.std d fuel none probePaths 0).1 = .ok (l', none) →
      (∀ b ∈ l'.drop l.length, b.type = tMoof ∨ b.type = tMdat) → j = { i with segments := j.segments } := by
  have hlen : (d.take n).length = n := by rw [List.length_take]; omega
  unfold probe at h h'
  obtain ⟨⟨l, par⟩, p1, e1, h⟩ := bind_ok_inv h
  obtain ⟨⟨l', par'⟩, q1, e1', h'⟩ := bind_ok_inv h'
  rw [extract_root_pos _ _ _ _ 0] at e1 e1'
  obtain ⟨t, rfl⟩ := part_extract hn hd fuel _ 0 (fun x hx => ho _ (List.mem_append.2 (.inl (List.mem_map.2 ⟨x, hx, rfl⟩)))) e1 e1'
  have hs := ((extract_sound (d := d.take n) (by omega) fuel _ 0).2 _ _ _ e1).2
  have hbs : (extractBoxesBeside BoxMap.std (d.take n) fuel none probePaths 0).1 = l := by
    have e2 : (extractBoxes BoxMap.std (d.take n) fuel none probePaths 0).1 = .ok (l, par) := by rw [e1]
    rw [beside_agrees] at e2
    generalize extractBoxesBeside BoxMap.std (d.take n) fuel none probePaths 0 = x at e2 ⊢
    obtain ⟨l, o⟩ := x
    cases o <;> simp only [Prod.mk.injEq, reduceCtorEq, Out.ok.injEq] at e2
    exact e2.1
  have hbelow : ∀ b ∈ l, ∀ c ∈ (if b.type = tTrak then visitedBelow (d.take n) fuel b trakPaths else if b.type = tMoof then visitedBelow (d.take n) fuel b moofPaths else []),
      c.extendToEOF = false := fun b hb c hc => ho c (List.mem_append.2 (.inr (List.mem_flatMap.2 ⟨b, hbs ▸ hb, hc⟩)))
  have := probeLoop_part hn hd fuel t l false {} p1 q1 i j p' q' (fun b hb => ⟨(hs b hb).imp fun _ h => h.1,
    fun ht c hc => hbelow b hb c (by rw [if_pos ht]; exact hc),
    fun ht c hc => hbelow b hb c (by rw [if_neg (by rw [ht]; decide), if_pos ht]; exact hc)⟩) h h'
  refine ⟨this.1, this.2.1, fun k k' hk hk' ht => this.2.2 ?_⟩
  rw [e1] at hk
  rw [e1'] at hk'
  cases hk
  cases hk'
  rwa [List.drop_left] at ht

/-- **C84** — Only the first `n` bytes of a file are there, and none of the boxes `Probe` looks at in the part says that it goes on to the end of the file.  If `Probe` succeeds on the part
and on the whole, the tracks and the segments it reports for the part are the first of those it reports for the whole, each with the same contents. -/
theorem part_probe (hn : n ≤ d.length) (hd : d.length ≤ 2 ^ 48) (fuel : Nat) (ho : ∀ b ∈ probeSees (d.take n) fuel, b.extendToEOF = false)
    {p q : Nat} {i j : ProbeInfo} {p' q' : Nat}
    (h : probe BoxMap.std (d.take n) fuel p = (.ok i, p')) (h' : probe BoxMap.std d fuel q = (.ok j, q')) : i.tracks <+: j.tracks ∧ i.segments <+: j.segments :=
  ⟨(part_probe_all hn hd fuel ho h h').1, (part_probe_all hn hd fuel ho h h').2.1⟩

/-- **C84**, fragments — If what `Probe` finds in the whole and not in the part are fragments and media data only, the brands, the time scale, the duration, the order of
`moov` and `mdat` and the tracks are those of the whole; the segments alone may be more. -/
theorem part_probe_fragments (hn : n ≤ d.length) (hd : d.length ≤ 2 ^ 48) (fuel : Nat) (ho : ∀ b ∈ probeSees (d.take n) fuel, b.extendToEOF = false)
    {p q : Nat} {i j : ProbeInfo} {p' q' : Nat}
    (h : probe BoxMap.std (d.take n) fuel p = (.ok i, p')) (h' : probe BoxMap.std d fuel q = (.ok j, q')) {l l' : List BoxInfo}
    (hl : (extractBoxes BoxMap.std (d.take n) fuel none probePaths 0).1 = .ok (l, none)) (hl' : (extractBoxes BoxMap.std d fuel none probePaths 0).1 = .ok (l', none))
    (ht : ∀ b ∈ l'.drop l.length, b.type = tMoof ∨ b.type = tMdat) : j = { i with segments := j.segments } :=
  (part_probe_all hn hd fuel ho h h').2.2 l l' hl hl' ht

/-! ## A concrete file -/

/-- a recording: the initialization segment of C78 and twice its media segment -/
def recording : Bytes := initBoxes.ser true {} ++ mediaBoxes.ser true {} ++ mediaBoxes.ser true {}

/-- the recording, cut inside of the first `mdat` -/
example : recording.length = 231 ∧ (∀ b ∈ probeSees (recording.take 188) 20, b.extendToEOF = false) ∧ (probeSees (recording.take 188) 20).length = 9 ∧
    (match (probe BoxMap.std (recording.take 188) 20 0).1, (probe BoxMap.std recording 20 0).1 with
    | .ok i, .ok j => i.segments.map (·.moofOffset) == [147] && j.segments.map (·.moofOffset) == [147, 189] && i.timescale == 1000
    | _, _ => false) = true := by decide +kernel

/-- what `part_probe_fragments` needs of it -/
example : (match (extractBoxes BoxMap.std (recording.take 188) 20 none probePaths 0).1, (extractBoxes BoxMap.std recording 20 none probePaths 0).1 with
    | .ok (l, none), .ok (l', none) => l.length == 5 && (l'.drop l.length).map (·.type) == [tMoof, tMdat]
    | _, _ => false) = true := by decide +kernel

/-- Why the part has to be one on which `Probe` succeeds: cut inside of the second `moof` it fails, although it reports the whole. -/
theorem part_probe_fails : ∃ (d : Bytes) (n : Nat), n ≤ d.length ∧ (match (probe BoxMap.std (d.take n) 20 0).1 with | .err _ => true | _ => false) = true ∧
    (match (probe BoxMap.std d 20 0).1 with | .ok _ => true | _ => false) = true :=
  ⟨recording, 200, by decide +kernel, by decide +kernel, by decide +kernel⟩

end Mp4.Props
