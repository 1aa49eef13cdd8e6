import Verif.Lemmas.Extract
import Verif.Lemmas.Ctx
import Verif.Props.Forest
import Verif.Props.Context

/-!
# C25, C26: extraction of boxes
-/

namespace Mp4.Props

open Mp4

variable {d : Bytes}

/-- **C25** — On every well-formed file, `ExtractBoxes` returns exactly the boxes whose path has one of the patterns given (none of
them empty), in file order, each once (see `boxes_in_file_order`).

Missing: nothing is known to be inside a leaf, and it may be of unknown type; `ExtractBoxes` expands every box whose path has the
pattern of a proper prefix of a given path, and fails if such a box is of unknown type (`extract_unknown_fails`).  So no leaf may have
such a path. -/
theorem extract_exact_partial (hd : d.length ≤ 2 ^ 48) (F : Forest) (hwf : F.WF d true [] {} 0 0) (paths : List (List BoxType))
    (hne : ∀ q ∈ paths, q ≠ []) (hleaf : ∀ x ∈ leaves [] F, ¬ AskedBelow paths x.1) (fuel : Nat) (hf : F.count < fuel) (pos : Nat) :
    (extractBoxes BoxMap.std d fuel none paths pos).1 = .ok (askedBoxes paths F, none) := by
  unfold extractBoxes
  by_cases hp : paths = []
  · rw [if_pos hp]
    subst hp
    have : askedBoxes [] F = [] := by
      unfold askedBoxes
      rw [none_asked (by rintro ⟨-, a, b, h, -⟩; cases h)]
      rfl
    rw [this]
  · rw [if_neg hp, if_neg (by
      rw [List.any_eq_true]
      rintro ⟨q, hq, h⟩
      exact hne q hq (List.length_eq_zero_iff.1 (by simpa using h)))]
    have hrel : ∀ r, relPath false ([] ++ r) = [] ++ r := fun r => rfl
    obtain ⟨h1, -, h3⟩ := walk_visits (S := List BoxInfo) (V := Unit) hd F hwf (noteAsked false paths) (wantAsked false paths)
      (fun _ => ()) (fun _ _ => ()) () [] pos (expandable_asked false paths F [] [] hrel (by simp) hleaf) fuel hf
    rw [collected false paths F none none [] [] [] hrel (by simp)] at h3
    have he : readBoxStructure BoxMap.std d (extractHandler false paths) fuel () =
        readBoxStructure BoxMap.std d (walker (noteAsked false paths) (wantAsked false paths) (fun _ => ()) (fun _ _ => ())) fuel () := by
      unfold readBoxStructure
      simp only [readStructure_congr (extractHandler_eq false paths)]
    unfold traverse at h1 h3
    simp only [he]
    generalize readBoxStructure BoxMap.std d
      (walker (noteAsked false paths) (wantAsked false paths) (fun _ => ()) (fun _ _ => ())) fuel () ⟨pos, [], []⟩ = r at h1 h3
    obtain ⟨o, st⟩ := r
    simp only at h1 h3
    subst h1
    simp only [h3]
    rfl

/-- An empty path is an error, whatever the file. -/
theorem extract_empty_path (m : BoxMap) (fuel : Nat) (parent : Option BoxInfo) (paths : List (List BoxType)) (h : [] ∈ paths)
    (pos : Nat) : extractBoxes m d fuel parent paths pos = (.err .emptyPath, pos) := by
  unfold extractBoxes
  rw [if_neg (by rintro rfl; cases h), if_pos (by
    rw [List.any_eq_true]
    exact ⟨[], h, rfl⟩)]

/-- **C25**, below a box — Given a box of a well-formed file as parent (with its fields of `n` bytes and the row `kids` of its
children), `ExtractBoxes` returns exactly those boxes inside it whose path relative to it has one of the patterns, and leaves the parent
as it is.  (`ftyp` and `keys` boxes have no children.) -/
theorem extract_below_exact_partial (hd : d.length ≤ 2 ^ 48) (bi : BoxInfo) (n : Nat) (kids rest : Forest) (isRoot : Bool)
    (path : List BoxType) (ctx : Ctx) (at_ total : Nat) (hwf : (Forest.node bi n kids rest).WF d isRoot path ctx at_ total)
    (h1 : bi.type ≠ tFtyp) (h2 : bi.type ≠ tKeys) (h3 : bi.type ≠ ⟨0, 0, 0, 0⟩) (paths : List (List BoxType))
    (hne : ∀ q ∈ paths, q ≠ []) (hleaf : ∀ x ∈ leaves [] kids, ¬ AskedBelow paths x.1) (fuel : Nat) (hf : kids.count < fuel)
    (pos : Nat) :
    (extractBoxes BoxMap.std d fuel (some bi) paths pos).1 = .ok (askedBoxes paths kids, some bi) := by
  unfold extractBoxes
  by_cases hp : paths = []
  · rw [if_pos hp]
    subst hp
    have : askedBoxes [] kids = [] := by
      unfold askedBoxes
      rw [none_asked (by rintro ⟨-, a, b, h, -⟩; cases h)]
      rfl
    rw [this]
  · rw [if_neg hp, if_neg (by
      rw [List.any_eq_true]
      rintro ⟨q, hq, h⟩
      exact hne q hq (List.length_eq_zero_iff.1 (by simpa using h)))]
    obtain ⟨hpl, hn, hk, -⟩ := hwf
    obtain ⟨-, hb⟩ := placed_header hd hpl
    have hin : bi.offset + bi.headerSize + n ≤ bi.offset + bi.size ∧ bi.offset + bi.size ≤ d.length := by
      refine ⟨?_, by rw [hpl.offset]; exact hpl.inFile⟩
      have h1 := payloadN_bound hd hb.inside hn
      have h2 := hpl.whole
      have h3 := hb.lt
      have h4 : sub64 bi.size bi.headerSize = bi.size - bi.headerSize := by
        unfold sub64
        simp only [U64] at *
        omega
      omega
    have htot : sub64 (add64 bi.offset bi.size) (bi.offset + bi.headerSize + n) = bi.size - bi.headerSize - n := by
      unfold sub64 add64
      simp only [U64] at *
      omega
    have hrel : ∀ r, relPath true ([bi.type] ++ r) = [] ++ r := fun r => rfl
    have hw : wantAsked true paths ⟨(), bi, [] ++ [bi.type]⟩ = true := by
      obtain ⟨q, hq⟩ := List.exists_mem_of_ne_nil _ hp
      unfold wantAsked
      have : AskedBelow paths [] := ⟨by simp, [], q, hq, hne q hq, rfl⟩
      rw [Bool.and_eq_true, decide_eq_true_eq]
      exact ⟨h3, (matchPath_iff (path := []) (by simp)).1.2 this⟩
    have hnote : ∀ s, noteAsked true paths ⟨(), bi, [] ++ [bi.type]⟩ s = s := by
      intro s
      unfold noteAsked
      rw [if_neg]
      rintro ⟨-, h⟩
      obtain ⟨-, q, hq, hh⟩ := (matchPath_iff (path := []) (by simp)).2.1 h
      exact hne q hq (List.length_eq_zero_iff.1 (hasPattern_length hh))
    obtain ⟨q1, L1, e1, -⟩ := walk_run (S := List BoxInfo) (V := Unit) (show d.length ≤ maxAlloc from hd) (noteAsked true paths)
      (wantAsked true paths) (fun _ => ()) (fun _ _ => ()) kids fuel (some bi)
      (sub64 (add64 bi.offset bi.size) (bi.offset + bi.headerSize + n)) false [bi.type] (childCtx bi) ()
      ⟨bi.offset + bi.headerSize + n, noteAsked true paths ⟨(), bi, [] ++ [bi.type]⟩ [],
        (entered (V := Unit) ⟨pos, ([] : List BoxInfo), []⟩ none ([] ++ [bi.type]) bi).log ++
          [.openBox ([] ++ [bi.type]) bi (bi.offset + bi.headerSize + n)]⟩
      (by
        rw [htot]
        simp only
        rw [hpl.offset]
        exact wf_path (by simp) (by simp) hk)
      (expandable_asked true paths kids [bi.type] [] hrel (by simp) hleaf) hf (by unfold sub64; exact Nat.mod_lt _ (by decide))
    rw [collected true paths kids (some bi) none [bi.type] [] _ hrel (by simp)] at e1
    have hr := walker_expand hd (note := noteAsked true paths) (want := wantAsked true paths) (sub := fun _ => ())
      (val := fun _ _ => ()) (path := [] ++ [bi.type])
      (children := fun co p => readStructure BoxMap.std d
        (walker (noteAsked true paths) (wantAsked true paths) (fun _ => ()) (fun _ _ => ())) fuel (some bi)
        (sub64 (add64 bi.offset bi.size) co) false ([] ++ [bi.type]) (childCtx bi) p)
      (st := entered (V := Unit) ⟨pos, ([] : List BoxInfo), []⟩ none ([] ++ [bi.type]) bi) hb.inside hn hw e1
    have hfr := fromInternal_run
      (h := walker (noteAsked true paths) (wantAsked true paths) (fun _ => ()) (fun _ _ => ()))
      (rec := fun par total path ctx p => readStructure BoxMap.std d
        (walker (noteAsked true paths) (wantAsked true paths) (fun _ => ()) (fun _ _ => ())) fuel (some par) total false path ctx p)
      hd (parent := none) (p := ()) (st := ⟨pos, [], []⟩) (bi := bi) hb.inside
      (checkFtyp_skip (.inr h1) _) (checkKeys_skip h2 _) rfl hr
    have he : readBoxStructureFrom BoxMap.std d (extractHandler true paths) fuel bi () =
        readBoxStructureFrom BoxMap.std d
          (walker (noteAsked true paths) (wantAsked true paths) (fun _ => ()) (fun _ _ => ())) fuel bi () := by
      unfold readBoxStructureFrom
      apply fromInternal_congr (extractHandler_eq true paths)
      funext par total path ctx p
      exact readStructure_congr (extractHandler_eq true paths) _ _ _ _ _ _ _
    have hend : (bi.offset + bi.size) % U64 < 2 ^ 63 := by
      simp only [U64]
      omega
    simp only [he]
    unfold readBoxStructureFrom
    simp only [hfr, if_pos hend]
    exact congrArg (fun s => Out.ok (s ++ askedBoxes paths kids, some bi)) (hnote [])

/-- Where C25 fails: in a file with a box of unknown type, asking for boxes inside boxes of that type is an error, even though
there are none. -/
theorem extract_unknown_fails : ∃ (F : Forest) (d : Bytes) (paths : List (List BoxType)),
    F.WF d true [] {} 0 0 ∧ askedBoxes paths F = [] ∧ (∀ q ∈ paths, q ≠ []) ∧
    (extractBoxes BoxMap.std d 10 none paths 0).1 = .err .boxInfoNotFound := by
  refine ⟨smallForest, smallFile, [[⟨0x78, 0x78, 0x78, 0x78⟩, ⟨0x79, 0x79, 0x79, 0x79⟩]], smallFile_wf, by decide, by decide, ?_⟩
  decide +kernel

/-- A pattern with a wildcard in the small file of C20: `moov`/any gives the box at offset 8; any gives the two boxes of the root. -/
example : (extractBoxes BoxMap.std smallFile 10 none [[⟨0x6d, 0x6f, 0x6f, 0x76⟩, ⟨0, 0, 0, 0⟩]] 0).1 =
    .ok ([⟨8, 8, 8, ⟨0x78, 0x78, 0x78, 0x78⟩, false, {}⟩], none) := by decide +kernel

/-- The condition of C25 holds for that pattern and for `any` alone, or both. -/
example : (extractBoxes BoxMap.std smallFile 10 none [[⟨0, 0, 0, 0⟩]] 5).1 =
    .ok ([⟨0, 16, 8, ⟨0x6d, 0x6f, 0x6f, 0x76⟩, false, {}⟩, ⟨16, 9, 8, ⟨0x78, 0x78, 0x78, 0x78⟩, false, {}⟩], none) :=
  extract_exact_partial (by decide) smallForest smallFile_wf _ (by decide) (by
    rintro x hx ⟨-, a, b, hq, hb, hp⟩
    have h2 := hasPattern_length hp
    have h3 := List.length_pos_iff.2 hb
    rw [List.mem_singleton] at hq
    have h4 := congrArg List.length hq
    have h5 : ∀ x ∈ leaves [] smallForest, 1 ≤ x.1.length := by decide
    have h5 := h5 x hx
    simp only [List.length_append, List.length_cons, List.length_nil] at h4
    omega) 10 (by decide) 5

/-! ## C26: payloads -/

theorem seekToPayload_any {bi bi' : BoxInfo} {a p p' : Nat} (h1 : bi'.offset = bi.offset) (h2 : bi'.headerSize = bi.headerSize)
    (h : bi.seekToPayload p = (.ok a, p')) (p0 : Nat) : bi'.seekToPayload p0 = (.ok a, p') := by
  unfold BoxInfo.seekToPayload seekStartP at *
  rw [h1, h2]
  split at h
  · cases h
  · next hc =>
    rw [if_neg hc]
    exact h

theorem decodeAll_ok {ctx : Ctx} : ∀ {bis : List BoxInfo} {pos pos' : Nat} {l : List (BoxInfo × BoxVal)},
    decodeAll BoxMap.std d ctx bis pos = (.ok l, pos') → l.map (·.1) = bis ∧
      ∀ x ∈ l, ∀ p0, ∃ n p, readPayloadP BoxMap.std d { x.1 with ctx := ctx } p0 = (.ok (x.2, n), p)
  | [], pos, pos', l, h => by cases h; simp
  | bi :: bis, pos, pos', l, h => by
    obtain ⟨a, s1, e1, h⟩ := bind_ok_inv h
    obtain ⟨⟨box, n⟩, s2, e2, h⟩ := bind_ok_inv h
    obtain ⟨rest, s3, e3, h⟩ := bind_ok_inv h
    cases h
    obtain ⟨i1, i2⟩ := decodeAll_ok e3
    refine ⟨by simp [i1], ?_⟩
    intro x hx p0
    rcases List.mem_cons.1 hx with rfl | hx
    · refine ⟨n, s2, ?_⟩
      have e0 := seekToPayload_any (bi' := { bi with ctx := ctx }) rfl rfl e1 p0
      exact (M.bind_ok e0).trans e2
    · exact i2 x hx p0

theorem decodeAll_run {ctx : Ctx} : ∀ {l : List (BoxInfo × BoxVal)},
    (∀ x ∈ l, ∀ p0, ∃ n p, readPayloadP BoxMap.std d { x.1 with ctx := ctx } p0 = (.ok (x.2, n), p)) → ∀ pos,
    ∃ pos', decodeAll BoxMap.std d ctx (l.map (·.1)) pos = (.ok l, pos')
  | [], h, pos => ⟨pos, rfl⟩
  | (bi, v) :: l, h, pos => by
    obtain ⟨n, p, e⟩ := h _ List.mem_cons_self pos
    obtain ⟨a, s1, e1, e2⟩ := bind_ok_inv e
    obtain ⟨q, e3⟩ := decodeAll_run (fun x hx => h x (List.mem_cons_of_mem _ hx)) p
    have e0 := seekToPayload_any (bi' := bi) rfl rfl e1 pos
    have e2 : BoxMap.std.unmarshalAny d bi.type (sub64 bi.size bi.headerSize) ctx s1 = (.ok (v, n), p) := e2
    refine ⟨q, ?_⟩
    rw [List.map_cons, decodeAll]
    simp only
    rw [M.bind_ok e0, M.bind_ok e2]
    simp only
    rw [M.bind_ok e3]
    rfl

theorem readPayloadP_alike {bi : BoxInfo} {ctx : Ctx} (h : Ctx.Alike bi.type ctx bi.ctx) (p : Nat) :
    readPayloadP BoxMap.std d { bi with ctx := ctx } p = readPayloadP BoxMap.std d bi p := by
  unfold readPayloadP
  simp only [unmarshalAny_alike h]
  rfl

/-- The context of the box given, or the empty context. -/
def givenCtx : Option BoxInfo → Ctx
  | some bi => bi.ctx
  | none => {}

/-- **C26** — On any file, `ExtractBoxesWithPayload` returns the boxes of `ExtractBoxes`, and beside each of them the
payload that `ReadPayload` gives for the box.  And if `ReadPayload` succeeds for all of them, so does the function.

Missing: the payloads are decoded in the context of the parent given (or the empty one) instead of that of the
box.  So the context of the box may not differ from that context in anything that matters for the box (`Ctx.Alike`).  If it does, the
function may fail (`extract_payload_fails`) or silently give another payload (`extract_payload_differs`). -/
theorem extract_payload_partial (fuel : Nat) (parent : Option BoxInfo) (paths : List (List BoxType)) (pos : Nat) :
    (∀ l pos', extractBoxesWithPayload BoxMap.std d fuel parent paths pos = (.ok l, pos') →
      ∃ parent' p, extractBoxes BoxMap.std d fuel parent paths pos = (.ok (l.map (·.1), parent'), p) ∧
        ∀ x ∈ l, Ctx.Alike x.1.type (givenCtx parent') x.1.ctx → ∀ p0, ∃ n p,
          readPayloadP BoxMap.std d x.1 p0 = (.ok (x.2, n), p)) ∧
    (∀ (l : List (BoxInfo × BoxVal)) parent' p,
      extractBoxes BoxMap.std d fuel parent paths pos = (.ok (l.map (·.1), parent'), p) →
      (∀ x ∈ l, Ctx.Alike x.1.type (givenCtx parent') x.1.ctx) →
      (∀ x ∈ l, ∀ p0, ∃ n p, readPayloadP BoxMap.std d x.1 p0 = (.ok (x.2, n), p)) →
      ∃ pos', extractBoxesWithPayload BoxMap.std d fuel parent paths pos = (.ok l, pos')) := by
  constructor
  · intro l pos' h
    obtain ⟨⟨bis, parent'⟩, s1, e1, h⟩ := bind_ok_inv h
    obtain ⟨h1, h2⟩ := decodeAll_ok h
    refine ⟨parent', s1, by rw [e1, h1], fun x hx ha p0 => ?_⟩
    obtain ⟨n, p, e⟩ := h2 x hx p0
    rw [← readPayloadP_alike ha]
    refine ⟨n, p, ?_⟩
    cases parent' <;> exact e
  · intro l parent' p he ha h
    have := decodeAll_run (d := d) (ctx := givenCtx parent') (l := l) (fun x hx p0 => by
      rw [readPayloadP_alike (ha x hx)]
      exact h x hx p0) p
    obtain ⟨q, e⟩ := this
    refine ⟨q, ?_⟩
    unfold extractBoxesWithPayload
    rw [M.bind_ok he]
    cases parent' <;> exact e

/-- moov/udta/meta/ilst/----/data -/
def itemPath : List BoxType := [⟨0x6d, 0x6f, 0x6f, 0x76⟩, tUdta, ⟨0x6d, 0x65, 0x74, 0x61⟩, tIlst, tFree, ⟨0x64, 0x61, 0x74, 0x61⟩]

/-- Where C26 fails: `ExtractBox` finds the `data` box of an item, `ReadPayload` can decode it, but `ExtractBoxWithPayload` fails. -/
theorem extract_payload_fails : ∃ bi, (extractBox BoxMap.std itemFile 20 none itemPath 0).1 = .ok ([bi], none) ∧
    (readPayloadP BoxMap.std itemFile bi 0).1.isOk = true ∧
    (match extractBoxWithPayload BoxMap.std itemFile 20 none itemPath 0 with
      | (.err .boxInfoNotFound, _) => true
      | _ => false) = true := by
  refine ⟨⟨68, 18, 8, ⟨0x64, 0x61, 0x74, 0x61⟩, false,
    { isQuickTimeCompatible := true, underIlst := true, underIlstMeta := true, underIlstFreeMeta := true, underUdta := true }⟩,
    ?_, ?_, ?_⟩ <;> decide +kernel

/-- A QuickTime file: `ftyp`, `mp4a` of version 1. -/
def qtAudioFile : Bytes := [0, 0, 0, 20, 102, 116, 121, 112, 113, 116, 32, 32, 0, 0, 0, 0, 113, 116, 32, 32,
  0, 0, 0, 52, 109, 112, 52, 97, 0, 0, 0, 0, 0, 0, 0, 1, 0, 1, 0, 0, 0, 0, 0, 0, 0, 2, 0, 16, 0, 0, 0, 0, 0xbb, 0x80, 0, 0,
  1, 2, 3, 4, 5, 6, 7, 8, 9, 10, 11, 12, 13, 14, 15, 16]

/-- Where C26 fails silently: in a QuickTime file, `ReadPayload` decodes the QuickTime data of the audio sample entry, and the payload of
`ExtractBoxWithPayload` lacks them. -/
theorem extract_payload_differs : ∃ bi, (extractBox BoxMap.std qtAudioFile 20 none [⟨0x6d, 0x70, 0x34, 0x61⟩] 0).1 = .ok ([bi], none) ∧
    (match readPayloadP BoxMap.std qtAudioFile bi 0 with
      | (.ok (v, n), _) => n == 44 && (match v.sv.get "QuickTimeData" with | some (.slice l) => l.length == 16 | _ => false)
      | _ => false) = true ∧
    (match extractBoxWithPayload BoxMap.std qtAudioFile 20 none [⟨0x6d, 0x70, 0x34, 0x61⟩] 0 with
      | (.ok [(_, v)], _) => (match v.sv.get "QuickTimeData" with | some (.slice l) => l.length == 0 | _ => false)
      | _ => false) = true := by
  refine ⟨⟨20, 52, 8, ⟨0x6d, 0x70, 0x34, 0x61⟩, false, { isQuickTimeCompatible := true }⟩, ?_, ?_, ?_⟩ <;> decide +kernel

/-- The condition of C26 is met by the `ftyp` box of that file, whose context is not the empty one. -/
example : (match extractBoxWithPayload BoxMap.std qtAudioFile 20 none [tFtyp] 0 with
      | (.ok [(bi, v)], _) => bi.ctx.isQuickTimeCompatible && (v.bd.goName == "Ftyp")
      | _ => false) = true := by decide +kernel
example : Ctx.Alike tFtyp {} { isQuickTimeCompatible := true } :=
  ⟨rfl, rfl, rfl, rfl, fun h => (by cases h), fun h => absurd h (by decide), fun h => absurd h (by decide)⟩

end Mp4.Props
