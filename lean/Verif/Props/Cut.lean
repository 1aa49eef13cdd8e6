import Verif.Lemmas.CutAll
import Verif.Props.ExtractAny
import Verif.Props.Summary

/-!
# C80: the beginning of a file
-/

namespace Mp4.Props

open Mp4 Mp4.Cut Mp4.Spec

variable {S P V : Type} {d : Bytes} {n : Nat}

/-- The boxes visited, none of which says that it goes on to the end of the file. -/
def NoneOpen (l : List (Ev V)) : Prop := ∀ x ∈ enters l, x.2.2.extendToEOF = false

theorem NoneOpen.not {l : List (Ev V)} (h : NoneOpen l) : ¬ OpenLog l := fun ⟨x, hx, he⟩ => by
  rw [h x hx] at he; cases he

theorem traverse_cut (hn : n ≤ d.length) (hd : d.length ≤ 2 ^ 48) {h : Handler S P V} (hh : ∀ x, PassesErrors (h x)) (fuel : Nat) (p : P) (s : S) (pos : Nat)
    (ho : NoneOpen (traverse (d.take n) h fuel p s pos).2.log) :
    traverse (d.take n) h fuel p s pos = traverse d h fuel p s pos ∨
    ((Stops (traverse (d.take n) h fuel p s pos).1 ∨ ∃ x, (traverse (d.take n) h fuel p s pos).1 = .ok x ∧ ∀ y, (traverse d h fuel p s pos).1 = .ok y → x <+: y) ∧
      enters (traverse (d.take n) h fuel p s pos).2.log <+: enters (traverse d h fuel p s pos).2.log) := by
  have e : ∀ d : Bytes, traverse d h fuel p s pos = readStructure BoxMap.std d h fuel none 0 true [] {} p ⟨0, s, []⟩ := fun d => rfl
  rw [e, e] at *
  rcases root_cut hn hd hh fuel none 0 [] {} p ⟨0, s, []⟩ with h1 | h1 | h1
  · exact absurd h1 ho.not
  · exact .inl h1
  · exact .inr h1

/-- **C80** — Only the first `n` bytes of a file are there (a recording or a download that has not finished).  Unless a box of the part says that it goes
on to the end of the file, `ReadBoxStructure` of the part, with any handler that passes on errors, calls the handler for the first few of the
boxes for which it is called in the whole file, with the same boxes, parents and paths, and for no other; and what it returns, if it succeeds, is
the beginning of what it returns for the whole. -/
theorem part_reads (hn : n ≤ d.length) (hd : d.length ≤ 2 ^ 48) {h : Handler S P V} (hh : ∀ x, PassesErrors (h x)) (fuel : Nat) (p : P) (s : S) (pos : Nat)
    (ho : NoneOpen (traverse (d.take n) h fuel p s pos).2.log) :
    enters (traverse (d.take n) h fuel p s pos).2.log <+: enters (traverse d h fuel p s pos).2.log ∧
    ∀ x y, (traverse (d.take n) h fuel p s pos).1 = .ok x → (traverse d h fuel p s pos).1 = .ok y → x <+: y := by
  rcases traverse_cut hn hd hh fuel p s pos ho with h1 | ⟨h1, h2⟩
  · rw [h1]
    exact ⟨List.prefix_refl _, fun x y ex ey => by rw [ex] at ey; cases ey; exact List.prefix_refl _⟩
  · refine ⟨h2, fun x y ex ey => ?_⟩
    rcases h1 with (⟨e, h1⟩ | h1) | ⟨z, h1, hz⟩
    · rw [ex] at h1; cases h1
    · rw [ex] at h1; cases h1
    · rw [ex] at h1; cases h1; exact hz y ey

/-- **C80**, outcome — The traversal of the part is in everything that of the whole, or it ends with an error (or not at all), or it has come to the end of the
part between two boxes of the file. -/
theorem part_outcome (hn : n ≤ d.length) (hd : d.length ≤ 2 ^ 48) {h : Handler S P V} (hh : ∀ x, PassesErrors (h x)) (fuel : Nat) (p : P) (s : S) (pos : Nat)
    (ho : NoneOpen (traverse (d.take n) h fuel p s pos).2.log) :
    traverse (d.take n) h fuel p s pos = traverse d h fuel p s pos ∨ (∃ e, (traverse (d.take n) h fuel p s pos).1 = .err e) ∨
    (traverse (d.take n) h fuel p s pos).1 = .hang ∨
    (∃ x, (traverse (d.take n) h fuel p s pos).1 = .ok x ∧ ∀ y, (traverse d h fuel p s pos).1 = .ok y → x <+: y) := by
  rcases traverse_cut hn hd hh fuel p s pos ho with h1 | ⟨(h1 | h1) | h1, -⟩
  · exact .inl h1
  · exact .inr (.inl h1)
  · exact .inr (.inr (.inl h1))
  · exact .inr (.inr (.inr h1))

/-- **C80**, payloads — What `ReadPayload` reads of a box in the part is what it reads in the whole file: the fields, the number of bytes, and the
position behind. -/
theorem part_payload (hn : n ≤ d.length) (hd : d.length ≤ 2 ^ 48) {bi : BoxInfo} (hb : bi.offset + bi.headerSize ≤ n) {pos p : Nat} {r : BoxVal × Nat}
    (h : readPayloadP BoxMap.std (d.take n) bi pos = (.ok r, p)) : readPayloadP BoxMap.std d bi pos = (.ok r, p) := by
  rcases pcut_payload hn hd hb pos with e | ⟨x, e⟩ | e
  · rw [← e]; exact h
  · rw [h] at e; cases e
  · rw [h] at e; cases e

/-- what the handler of `ExtractBoxes` notes of a call -/
def noted (below : Bool) (paths : List (List BoxType)) (x : Option BoxInfo × List BoxType × BoxInfo) : Option BoxInfo :=
  pick below paths (.enter x.1 x.2.1 x.2.2)

theorem pick_enters (below : Bool) (paths : List (List BoxType)) : ∀ l : List (Ev Unit), l.filterMap (pick below paths) = (enters l).filterMap (noted below paths)
  | [] => rfl
  | .enter parent path bi :: l => by
    rw [List.filterMap_cons, enters, List.filterMap_cons, pick_enters below paths l]
    rfl
  | .leave _ _ _ _ :: l => by rw [List.filterMap_cons_none rfl, pick_enters below paths l]; rfl
  | .openBox _ _ _ :: l => by rw [List.filterMap_cons_none rfl, pick_enters below paths l]; rfl
  | .closeBox _ _ _ :: l => by rw [List.filterMap_cons_none rfl, pick_enters below paths l]; rfl

/-- The calls of the handler of `ExtractBoxes`. -/
def extractCalls (d : Bytes) (fuel : Nat) (paths : List (List BoxType)) : List (Ev Unit) := (traverse d (extractHandler false paths) fuel () []).2.log

/-- **C80**, `ExtractBoxes` — If it succeeds on the part and on the whole, what it finds in the part are the first of what it finds in the whole. -/
theorem part_extract (hn : n ≤ d.length) (hd : d.length ≤ 2 ^ 48) (fuel : Nat) (paths : List (List BoxType)) (pos : Nat)
    (ho : NoneOpen (extractCalls (d.take n) fuel paths)) {l l' : List BoxInfo} {par par' : Option BoxInfo} {p p' : Nat}
    (h : extractBoxes BoxMap.std (d.take n) fuel none paths pos = (.ok (l, par), p))
    (h' : extractBoxes BoxMap.std d fuel none paths pos = (.ok (l', par'), p')) : l <+: l' := by
  unfold extractBoxes at h h'
  by_cases h0 : paths = []
  · rw [if_pos h0] at h h'; cases h; cases h'; exact List.prefix_refl _
  rw [if_neg h0] at h h'
  split at h
  · cases h
  next h1 =>
  rw [if_neg h1] at h'
  have hC : ∀ d : Bytes, Collected false paths (traverse d (extractHandler false paths) fuel () [] pos).2 := by
    intro d
    unfold traverse readBoxStructure
    exact gathers_bind (gathers_liftP _) (fun _ => gathers_readStructure _ _ _ _ _ _ _ (by simp)) ⟨pos, [], []⟩ ⟨rfl, by simp⟩
  have hp := (part_reads hn hd (h := extractHandler false paths) (Src.extractHandler_passes false paths) fuel () [] pos ho).1
  have c1 := (hC (d.take n)).1
  have c2 := (hC d).1
  rw [pick_enters] at c1 c2
  unfold traverse at hp c1 c2
  simp only at h h'
  generalize readBoxStructure BoxMap.std (d.take n) (extractHandler false paths) fuel () ⟨pos, [], []⟩ = x at *
  generalize readBoxStructure BoxMap.std d (extractHandler false paths) fuel () ⟨pos, [], []⟩ = y at *
  obtain ⟨o1, s1⟩ := x
  obtain ⟨o2, s2⟩ := y
  cases o1 <;> simp only [reduceCtorEq, Prod.mk.injEq, Out.ok.injEq, false_and] at h
  cases o2 <;> simp only [reduceCtorEq, Prod.mk.injEq, Out.ok.injEq, false_and] at h'
  rw [← h.1.1, ← h'.1.1, c1, c2]
  obtain ⟨t, ht⟩ := hp
  rw [← ht, List.filterMap_append]
  exact List.prefix_append _ _

/-- **C80**, below a box — If `ExtractBoxes` below a box succeeds on the part, it gives the same on the whole. -/
theorem part_extract_below (hn : n ≤ d.length) (hd : d.length ≤ 2 ^ 48) (fuel : Nat) {bi : BoxInfo} (hb : bi.offset + bi.headerSize ≤ n)
    (paths : List (List BoxType)) (pos : Nat)
    (ho : NoneOpen (readBoxStructureFrom BoxMap.std (d.take n) (extractHandler true paths) fuel bi () ⟨pos, [], []⟩).2.log) {r : List BoxInfo × Option BoxInfo} {p : Nat}
    (h : extractBoxes BoxMap.std (d.take n) fuel (some bi) paths pos = (.ok r, p)) : extractBoxes BoxMap.std d fuel (some bi) paths pos = (.ok r, p) := by
  have hf := (fromInternal_cut hn hd (Src.extractHandler_passes true paths)
    (rs := fun par total path ctx p => readStructure BoxMap.std (d.take n) (extractHandler true paths) fuel (some par) total false path ctx p)
    (rl := fun par total path ctx p => readStructure BoxMap.std d (extractHandler true paths) fuel (some par) total false path ctx p)
    (fun _ _ _ _ _ => readStructure_cut hn hd (Src.extractHandler_passes true paths) fuel _ _ _ _ _) none hb [] ()).rel ⟨pos, [], []⟩
  unfold extractBoxes at h ⊢
  by_cases h0 : paths = []
  · rw [if_pos h0] at h ⊢; exact h
  rw [if_neg h0] at h ⊢
  split at h
  · cases h
  next h1 =>
  rw [if_neg h1]
  simp only at h ⊢
  rcases hf with hf | hf | ⟨hf, -⟩
  · exact absurd hf ho.not
  · unfold readBoxStructureFrom at h ⊢; rw [← hf]; exact h
  · unfold readBoxStructureFrom at h
    generalize fromInternal BoxMap.std (d.take n) _ _ _ _ _ _ _ = x at *
    obtain ⟨o, s⟩ := x
    rcases hf with ⟨e, hf⟩ | hf
    · simp only at hf; subst hf; cases h
    · simp only at hf; subst hf; cases h

theorem decodeAll_cut (hn : n ≤ d.length) (hd : d.length ≤ 2 ^ 48) (ctx : Ctx) : ∀ (l t : List BoxInfo) (pos pos' : Nat), (∀ b ∈ l, b.offset + b.headerSize ≤ n) →
    ∀ r r' p p', decodeAll BoxMap.std (d.take n) ctx l pos = (.ok r, p) → decodeAll BoxMap.std d ctx (l ++ t) pos' = (.ok r', p') → r <+: r'
  | [], t, pos, pos', _, r, r', p, p', h, h' => by cases h; exact List.nil_prefix
  | b :: l, t, pos, pos', hb, r, r', p, p', h, h' => by
    have h1 := hb b List.mem_cons_self
    rw [List.cons_append] at h'
    unfold decodeAll at h h'
    rw [M.bind_ok (seekToPayload_ok hd (by omega) pos)] at h
    rw [M.bind_ok (seekToPayload_ok hd (by omega) pos')] at h'
    obtain ⟨⟨box, k⟩, p1, e1, h⟩ := bind_ok_inv h
    obtain ⟨⟨box', k'⟩, p1', e1', h'⟩ := bind_ok_inv h'
    obtain ⟨r1, p2, e2, h⟩ := bind_ok_inv h
    obtain ⟨r1', p2', e2', h'⟩ := bind_ok_inv h'
    have hbox : box = box' := by
      rcases pcut_any hn hd h1 b.type (sub64 b.size b.headerSize) ctx with e | ⟨x, e⟩ | e
      · rw [e1, e1'] at e; cases e; rfl
      · rw [e1] at e; cases e
      · rw [e1] at e; cases e
    obtain ⟨z, hz⟩ := decodeAll_cut hn hd ctx l t p1 p1' (fun b hb' => hb b (List.mem_cons_of_mem _ hb')) r1 r1' _ _ e2 e2'
    cases h
    cases h'
    exact ⟨z, by rw [hbox, ← hz]; rfl⟩

/-- **C80**, `ExtractBoxesWithPayload` — The same, with the payloads. -/
theorem part_extract_payload (hn : n ≤ d.length) (hd : d.length ≤ 2 ^ 48) (fuel : Nat) (paths : List (List BoxType)) (pos : Nat)
    (ho : NoneOpen (extractCalls (d.take n) fuel paths)) {l l' : List (BoxInfo × BoxVal)} {p p' : Nat}
    (h : extractBoxesWithPayload BoxMap.std (d.take n) fuel none paths pos = (.ok l, p))
    (h' : extractBoxesWithPayload BoxMap.std d fuel none paths pos = (.ok l', p')) : l <+: l' := by
  have hl : (d.take n).length = n := by rw [List.length_take]; omega
  unfold extractBoxesWithPayload at h h'
  obtain ⟨⟨bis, par⟩, p1, e1, h⟩ := bind_ok_inv h
  obtain ⟨⟨bis', par'⟩, p1', e1', h'⟩ := bind_ok_inv h'
  obtain ⟨t, rfl⟩ := part_extract hn hd fuel paths pos ho e1 e1'
  obtain ⟨rfl, hs⟩ := (extract_sound (d := d.take n) (by omega) fuel paths pos).2 _ _ _ e1
  obtain ⟨rfl, -⟩ := (extract_sound hd fuel paths pos).2 _ _ _ e1'
  refine decodeAll_cut hn hd _ bis t p1 p1' (fun b hb => ?_) _ _ _ _ h h'
  obtain ⟨path, hp, -⟩ := hs b hb
  have hr : Real (d.take n) b := by cases hp with
    | first hc => exact hc.real
    | down _ hc => exact hc.real
  have := (header_of_real (by omega) hr).inside
  omega

/-- **C80**, nothing that is there is missed — In a well-formed file (as in C20; no box that goes on to the end of the file, nothing in `ftyp` and `keys` but their
fields) the handler that expands the boxes it wants is called in the part for each box that lies in the part as a whole, as in the whole file, also for
those inside of boxes that are cut off. -/
theorem part_sees (hn : n ≤ d.length) (hd : d.length ≤ 2 ^ 48) (F : Forest) (hwf : F.WF d true [] {} 0 0) (hp : F.Plain []) (note : Handle P → S → S)
    (want : Handle P → Bool) (sub : Handle P → P) (val : Handle P → List V → V) (p : P) (s : S) (pos : Nat) (hex : F.Expandable want sub [] p) (fuel : Nat) (hf : F.count < fuel) :
    let h := walker note want sub val
    ∀ x ∈ enters (traverse d h fuel p s pos).2.log, x.2.2.offset + x.2.2.size ≤ n → x ∈ enters (traverse (d.take n) h fuel p s pos).2.log := by
  intro h x hx hin
  have hw := (walk_visits hd F hwf note want sub val p s pos hex fuel hf).2.1
  rw [hw] at hx
  obtain ⟨y, hy, rfl⟩ := List.mem_map.1 hx
  exact row_seen hn hd note want sub val F fuel none 0 true [] {} p ⟨0, s, []⟩ hwf hp hex hf (by decide) y hy hin

/-! ## Concrete files -/

/-- the handler that expands every box of known type -/
def knownExpander : Handler Nat Unit Unit := walker (fun _ s => s + 1) (fun h => BoxMap.std.isSupported h.info.type h.info.ctx) (fun _ => ()) (fun _ _ => ())

theorem knownExpander_passes (x : Handle Unit) : PassesErrors (knownExpander x) := by
  unfold knownExpander walker
  intro s
  show PassesErrors (if _ then _ else _)
  split
  · exact ⟨fun e => rfl, fun l => trivial⟩
  · trivial

/-- the initialization segment of C78, cut inside its `mvhd` (which cannot be read), and the whole -/
example : let calls := fun d => (enters (traverse d knownExpander 20 () 0).2.log).map fun x => (x.2.2.offset, x.2.2.size)
    calls ((initBoxes.ser true {}).take 100) = [(0, 20), (20, 127), (28, 108)] ∧ (traverse ((initBoxes.ser true {}).take 100) knownExpander 20 () 0).1 = .err .eof ∧
    calls (initBoxes.ser true {}) = [(0, 20), (20, 127), (28, 108), (136, 11)] := by decide +kernel

/-- it meets what `part_sees` needs -/
example : (initBoxes.forest true {} 0).WF (initBoxes.ser true {}) true [] {} 0 0 ∧ (initBoxes.forest true {} 0).Plain [] := by
  refine ⟨(wf_reads initBoxes (Boxes.ok_mono _ _ _ _ initBoxes_ok.1) (by decide +kernel)).1, rfl, fun _ => rfl, trivial, rfl, ?_, ⟨rfl, fun _ => rfl, trivial, rfl, trivial⟩, trivial⟩
  rintro (⟨-, h⟩ | h) <;> exact absurd h (by decide +kernel)

example : NoneOpen (traverse ((initBoxes.ser true {}).take 100) knownExpander 20 () 0).2.log := by
  unfold NoneOpen; decide +kernel

/-- Why no box of the part may say that it goes on to the end of the file: its size is another one in the whole. -/
theorem part_open_differs : ∃ (d : Bytes) (n : Nat), n ≤ d.length ∧
    (extractBox BoxMap.std (d.take n) 20 none [⟨0, 0, 0, 0⟩] 0).1 = .ok ([⟨0, 8, 8, ⟨0x66, 0x72, 0x65, 0x65⟩, true, {}⟩], none) ∧
    (extractBox BoxMap.std d 20 none [⟨0, 0, 0, 0⟩] 0).1 = .ok ([⟨0, 10, 8, ⟨0x66, 0x72, 0x65, 0x65⟩, true, {}⟩], none) := by
  refine ⟨[0, 0, 0, 0, 102, 114, 101, 101, 1, 2], 8, ?_, ?_, ?_⟩ <;> decide +kernel

end Mp4.Props
