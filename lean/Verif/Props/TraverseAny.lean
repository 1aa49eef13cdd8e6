import Verif.Lemmas.TraverseAnyFacts
import Verif.Props.Custom

/-!
# C71: traversal when an application has registered further box types

`registered us` is the registry after the `init` functions of the library and the registrations `us` of an application (`AddBoxDef`,
`AddBoxDefEx`, `AddAnyTypeBoxDef`, `AddAnyTypeBoxDefEx`), the oldest first.  They may be for types that the library knows, too.
-/

namespace Mp4.Props

open Mp4

/-- The registry after the registrations `us`. -/
def registered (us : List (BoxType × BoxDef)) : BoxMap := BoxMap.ofRegs (Cat.registry ++ us)

/-- What has to be seen to: the definitions are `SafeDef` (C70), and not for `ftyp` or `keys`, which the traversal itself decodes into the structs of the
library. -/
def SafeRegs (us : List (BoxType × BoxDef)) : Prop := ∀ u ∈ us, SafeDef u.2 ∧ u.1 ≠ tFtyp ∧ u.1 ≠ tKeys

/-- The definition that is found is one of the library or of the application. -/
theorem registered_mem {us : List (BoxType × BoxDef)} {t : BoxType} {ctx : Ctx} {bd : BoxDef} (h : (registered us).getBoxDef t ctx = some bd) :
    (bd ∈ Cat.allDefs ∧ (bd.goName = "Trun" → t = tTrun)) ∨ (t, bd) ∈ us := by
  have hreg : ∀ r ∈ Cat.registry, r.2.goName = "Trun" → r.1 = tTrun := by decide +kernel
  unfold BoxMap.getBoxDef at h
  split at h
  · next x hx =>
    cases h
    rcases List.mem_append.1 (ofRegs_mem (defLoop_mem hx)) with hm | hm
    · exact .inl ⟨registry_mem hm, hreg _ hm⟩
    · exact .inr hm
  · split at h
    · simp only at h
      split at h
      · cases h; exact .inl ⟨bdItem_mem, fun hn => absurd hn (by decide)⟩
      · cases h
    · cases h

variable {S P V : Type} {us : List (BoxType × BoxDef)} {d : Bytes}

theorem registered_good (hus : SafeRegs us) (hd : d.length ≤ 2 ^ 48) : Reg.Good (registered us) d where
  len := hd
  post := by
    intro pos hpos t ctx ps
    unfold BoxMap.unmarshalAny BoxMap.new
    cases hl : (registered us).getBoxDef t ctx with
    | none => trivial
    | some bd =>
      simp only
      rcases registered_mem hl with ⟨hbd, hn⟩ | hu
      · have hp := unmarshalBox_post hbd (show d.length ≤ maxAlloc from hd) hpos ctx ps (zero_typedFields bd.fields)
        cases hr : unmarshalBox bd d ctx ps bd.fields.zero pos with
        | mk o p =>
          rw [hr] at hp
          match o, hp with
          | .ok (n, sv), hp => exact ⟨hp.1, hp.2.1, hp.2.2.1⟩
          | .err e, _ => trivial
          | .hang, hp =>
            have hp : ¬ Ends bd d pos := hp
            unfold Ends at hp
            refine ⟨hn ?_, ?_⟩
            · exact Classical.byContradiction fun h => hp fun h' => absurd h' h
            · exact Classical.byContradiction fun h => hp fun _ => h
      · rcases custom_post (hus _ hu).1 (show d.length ≤ maxAlloc from hd) hpos ctx ps (zero_typedFields bd.fields) with
          ⟨n, sv, h1, h2, h3, _⟩ | ⟨e, p, h1⟩
        · simp only [h1]
          exact ⟨h2, rfl, h3⟩
        · simp only [h1]
          trivial

/-- **C71** — `UnmarshalAny` of any type, from any bytes, with any announced size: it returns an error, or a box and the number of bytes it consumed, which
is neither more than announced nor more than there are.  The only exception is that of the library's own `trun`. -/
theorem registered_decodes_safely_partial (hus : SafeRegs us) (hd : d.length ≤ 2 ^ 48) (pos : Nat) (hpos : pos ≤ d.length) (t : BoxType) (ps : Nat) (ctx : Ctx) :
    (∃ box n, (registered us).unmarshalAny d t ps ctx pos = (.ok (box, n), pos + n) ∧ n ≤ ps ∧ pos + n ≤ d.length) ∨
    (∃ e p, (registered us).unmarshalAny d t ps ctx pos = (.err e, p)) ∨
    (t = tTrun ∧ (d.drop (pos + 4)).take 4 = [0xff#8, 0xff#8, 0xff#8, 0xff#8]) := by
  have h := (registered_good hus hd).post hpos t ctx ps
  cases hr : (registered us).unmarshalAny d t ps ctx pos with
  | mk o p =>
    rw [hr] at h
    match o, h with
    | .ok (box, n), h => obtain ⟨h1, rfl, h3⟩ := h; exact .inl ⟨box, n, rfl, h1, h3⟩
    | .err e, _ => exact .inr (.inl ⟨e, p, rfl⟩)
    | .hang, h => exact .inr (.inr h)

/-- **C71** — Traversal does not panic. -/
theorem registered_traversal_never_panics (hus : SafeRegs us) (hd : d.length ≤ 2 ^ 48) (h : Handler S P V) (fuel : Nat) (p : P) (s : S)
    (pos : Nat) : (Reg.traverse (registered us) d h fuel p s pos).1 ≠ .panic :=
  Reg.tr_no_panic (Reg.traverse_tr (registered_good hus hd) h fuel p s pos)

/-- **C71** — When the handler has returned without error, the next thing that happens is the call for the box right behind in the same parent, unless there is
none: then the row is over (as in C21). -/
theorem registered_handler_cannot_derail (hus : SafeRegs us) (hd : d.length ≤ 2 ^ 48) (h : Handler S P V) (fuel : Nat) (p : P) (s : S) (pos : Nat)
    (A B : List (Ev V)) (parent : Option BoxInfo) (path : List BoxType) (bi : BoxInfo) (v : V)
    (hlog : (Reg.traverse (registered us) d h fuel p s pos).2.log = A ++ .leave parent path bi (.ok v) :: B) :
    Reg.NextIsAt (registered us) d ((Reg.traverse (registered us) d h fuel p s pos).1 = .hang) parent path.dropLast (endOf bi) B.head? := by
  have hg := registered_good hus hd
  have hf := (Reg.tr_follows hg ((Reg.traverse (registered us) d h fuel p s pos).1 = .hang)
    (Reg.traverse_tr hg h fuel p s pos) (.inl ⟨rfl, rfl, rfl⟩) id none (.inl rfl) (fun _ => rfl)).1
  rw [hlog] at hf
  have := followsT_split hf
  rw [Option.or_none] at this
  exact this

/-- **C71** — The children of a box are read from right behind what its definition — the newest one that applies — consumes, and the
first of them is the box there, unless there is none. -/
theorem registered_expand_start (hus : SafeRegs us) (hd : d.length ≤ 2 ^ 48) (h : Handler S P V) (fuel : Nat) (p : P) (s : S) (pos : Nat)
    (A B : List (Ev V)) (path : List BoxType) (bi : BoxInfo) (start : Nat)
    (hlog : (Reg.traverse (registered us) d h fuel p s pos).2.log = A ++ .openBox path bi start :: B) :
    (∃ box n q, (registered us).unmarshalAny d bi.type (sub64 bi.size bi.headerSize) bi.ctx (bi.offset + bi.headerSize) = (.ok (box, n), q) ∧
      start = bi.offset + bi.headerSize + n) ∧
    Reg.NextIsAt (registered us) d ((Reg.traverse (registered us) d h fuel p s pos).1 = .hang) (some bi) path start B.head? := by
  have hg := registered_good hus hd
  have ht := Reg.traverse_tr hg h fuel p s pos
  refine ⟨?_, ?_⟩
  · obtain ⟨_, n, ⟨box, q, h1⟩, h2⟩ := Reg.tr_facts hg ht (by intro p hp; cases hp) (by simp) (.openBox path bi start) (by rw [hlog]; simp)
    exact ⟨box, n, q, h1, h2⟩
  · have hf := (Reg.tr_follows hg ((Reg.traverse (registered us) d h fuel p s pos).1 = .hang) ht (.inl ⟨rfl, rfl, rfl⟩) id none (.inl rfl) (fun _ => rfl)).1
    rw [hlog] at hf
    have := followsT_split hf
    rw [Option.or_none] at this
    exact this

/-- **C71** — Every box passed to the handler is the box whose header is at its offset, and lies within the bytes of the box that was expanded, if the size
of that covers its header (as in C22). -/
theorem registered_visited_boxes_partial (hus : SafeRegs us) (hd : d.length ≤ 2 ^ 48) (h : Handler S P V) (fuel : Nat) (p : P) (s : S) (pos : Nat)
    (parent : Option BoxInfo) (path : List BoxType) (bi : BoxInfo)
    (hev : .enter parent path bi ∈ (Reg.traverse (registered us) d h fuel p s pos).2.log) :
    isoHeader (d.drop bi.offset) = .box bi.size bi.headerSize bi.type bi.extendToEOF ∧ path.getLast? = some bi.type ∧
    (parent = none ↔ path.length = 1) ∧ ∀ q, parent = some q → Regular q → Inside q bi := by
  have hg := registered_good hus hd
  have hf := Reg.tr_facts hg (Reg.traverse_tr hg h fuel p s pos) (by intro p hp; cases hp) (by simp) _ hev
  exact ⟨hf.1.iso, hf.2.1, hf.2.2.1, hf.2.2.2⟩

/-- **C71** — Calls are properly nested; errors stop the row and are returned by the enclosing `Expand`; otherwise the values are (as in C24). -/
theorem registered_values_and_errors (hus : SafeRegs us) (hd : d.length ≤ 2 ^ 48) (h : Handler S P V) (fuel : Nat) (p : P) (s : S) (pos : Nat) :
    Nested (Reg.traverse (registered us) d h fuel p s pos).1 [⟨none, [], none⟩] (Reg.traverse (registered us) d h fuel p s pos).2.log := by
  obtain ⟨rs, hrs, hn⟩ := Reg.tr_nested (Reg.traverse_tr (registered_good hus hd) h fuel p s pos)
  have := hn [] [] [] (Reg.traverse (registered us) d h fuel p s pos).1 (fun e => ⟨rfl, e⟩) (fun hne => by
    rw [Nested]
    exact .inr ⟨rs, rfl, hrs hne⟩)
  rw [List.append_nil] at this
  exact this

/-- **C71** — The traversal returns, after at most `d.length / 8` nested or successive calls, unless it meets a box whose announced size does not cover its
header or runs past 2^64, or a `trun` box announcing 2^32-1 samples (as in C23). -/
theorem registered_traversal_terminates_partial (hus : SafeRegs us) (hd : d.length ≤ 2 ^ 48) (h : Handler S P V) (fuel : Nat) (p : P) (s : S)
    (pos : Nat) (hf : d.length < 8 * fuel)
    (hreg : ∀ parent path bi, .enter parent path bi ∈ (Reg.traverse (registered us) d h fuel p s pos).2.log →
      Regular bi ∧ ¬ AllOnesTrun d bi) :
    (Reg.traverse (registered us) d h fuel p s pos).1 ≠ .hang := by
  intro e
  have hg := registered_good hus hd
  rcases Reg.tr_fuel hg (Reg.traverse_tr hg h fuel p s pos) e with h | h | h
  · obtain ⟨a, b, c, h1, h2⟩ := h
    rcases h2 with h2 | h2
    · exact h2 (hreg a b c h1).1
    · exact (hreg a b c h1).2 h2
  · omega
  · omega

/-- **C71** — What it returned without using up the fuel does not depend on the fuel. -/
theorem registered_fuel_irrelevant (h : Handler S P V) {f f' : Nat} (hle : f ≤ f') (p : P) (s : S) (pos : Nat)
    (hh : (Reg.traverse (registered us) d h f p s pos).1 ≠ .hang) :
    Reg.traverse (registered us) d h f' p s pos = Reg.traverse (registered us) d h f p s pos := by
  unfold Reg.traverse readBoxStructure at *
  have e1 : (liftP (seekStartP 0) : TM S V Nat) ⟨pos, s, []⟩ = (.ok 0, ⟨0, s, []⟩) := rfl
  rw [M.bind_ok e1] at hh ⊢
  rw [M.bind_ok e1]
  exact readStructure_mono_le hle _ _ _ _ _ _ _ hh

/-- Without registrations it is the traversal of C20–C24. -/
theorem registered_nil (h : Handler S P V) (fuel : Nat) (p : P) (s : S) (pos : Nat) :
    Reg.traverse (registered []) d h fuel p s pos = traverse d h fuel p s pos := by
  unfold Reg.traverse traverse registered BoxMap.std
  rw [List.append_nil]

/-! ## An example -/

/-- The box of the README, with the method, registered for `xxxx`. -/
def exRegs : List (BoxType × BoxDef) := [(tXxxx, bdXxxxLen)]

example : SafeRegs exRegs := by
  intro u hu
  simp only [exRegs, List.mem_singleton] at hu
  subst hu
  exact ⟨readme_with_length_safe, by decide, by decide⟩

/-- `xxxx` of 27 bytes: three bytes in the array, and a `free` box behind them. -/
def xxxxFile : Bytes := [0, 0, 0, 27, 0x78, 0x78, 0x78, 0x78, 0, 0, 0, 0, 0, 0, 0, 3, 7, 8, 9, 0, 0, 0, 8, 0x66, 0x72, 0x65, 0x65]

/-- A handler that expands the boxes of types that the registry knows. -/
def expandKnown (m : BoxMap) : Handler Unit Unit Unit := fun hd =>
  if m.isSupported hd.info.type hd.info.ctx then .expand () returnErr else .ret ()

/-- offsets of the boxes visited, with the length of the path -/
def offsetsVisited : List (Ev V) → List (Nat × Nat)
  | .enter _ path bi :: l => (bi.offset, path.length) :: offsetsVisited l
  | _ :: l => offsetsVisited l
  | [] => []

/-- Before the registration only `xxxx` is visited, after it the box in it as well. -/
example : offsetsVisited (traverse xxxxFile (expandKnown BoxMap.std) 5 () ()).2.log = [(0, 1)] ∧
    offsetsVisited (Reg.traverse (registered exRegs) xxxxFile (expandKnown (registered exRegs)) 5 () ()).2.log = [(0, 1), (19, 2)] ∧
    (Reg.traverse (registered exRegs) xxxxFile (expandKnown (registered exRegs)) 5 () ()).1 = .ok [()] := by decide +kernel

/-- With the definition as the README has it (C70), which is not `SafeDef`, expanding such a box panics. -/
theorem readme_traversal_panics :
    (Reg.traverse (registered [(tXxxx, bdXxxx)]) xxxxFile (expandKnown (registered [(tXxxx, bdXxxx)])) 5 () ()).1 = .panic := by decide +kernel

end Mp4.Props
