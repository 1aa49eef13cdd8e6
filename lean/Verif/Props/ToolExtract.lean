import Verif.Lemmas.Visit
import Verif.Model.Tool
import Verif.Props.ExtractAny
import Verif.Props.Forest

/-!
# C58: `mp4tool extract`
-/

namespace Mp4.Props

open Mp4 Mp4.Tool

variable {d : Bytes}

/-- the bytes of a box in the file -/
def rawBytes (d : Bytes) (bi : BoxInfo) : Bytes := (d.drop bi.offset).take bi.size

/-- The types of which the tool assumes that large boxes contain no others. -/
def tableTypes : List String :=
  ["emsg", "esds", "ftyp", "pssh", "ctts", "co64", "elst", "sbgp", "sdtp", "stco", "stsc", "stts", "stss", "stsz", "tfra", "trun"]

/-- A large box of one of these types -/
def LargeTable (bi : BoxInfo) : Prop := 256 ≤ bi.size ∧ bi.type.bytes ∈ tableTypes.map (fun s => s.toList.map fun c => BitVec.ofNat 8 c.toNat)

/-- `ErrUnsupportedBoxVersion` when the box is decoded -/
def BadVersion (d : Bytes) (bi : BoxInfo) : Prop :=
  ∃ p, BoxMap.std.unmarshalAny d bi.type (sub64 bi.size bi.headerSize) bi.ctx (bi.offset + bi.headerSize) = (.err .unsupportedVersion, p)

/-- A file as the tool expects it: the contents of a box are understood unless its type or version is not known, or it is a large table; these
contain no boxes. -/
def Understood (d : Bytes) : Forest → Prop
  | .nil => True
  | .leaf bi rest => (BoxMap.std.isSupported bi.type bi.ctx = false ∨ LargeTable bi ∨ BadVersion d bi) ∧ Understood d rest
  | .node bi _ kids rest => (LargeTable bi → kids = .nil) ∧ Understood d kids ∧ Understood d rest

/-- What a user expects of `mp4tool extract`: the bytes of all boxes of the type, in the order of the file. -/
def allOfType (d : Bytes) (t : BoxType) (F : Forest) : Bytes :=
  ((F.boxes none []).filter (fun x => x.2.2.type = t)).flatMap (fun x => rawBytes d x.2.2)

theorem noChildren_iff (t : BoxType) : noChildren t = true ↔ t.bytes ∈ tableTypes.map (fun s => s.toList.map fun c => BitVec.ofNat 8 c.toNat) := by
  have e : tableTypes.map (fun s => s.toList.map fun c => BitVec.ofNat 8 c.toNat) = ([
    ⟨0x65, 0x6d, 0x73, 0x67⟩, tEsds, tFtyp, ⟨0x70, 0x73, 0x73, 0x68⟩, tCtts, tCo64, tElst, ⟨0x73, 0x62, 0x67, 0x70⟩,
    ⟨0x73, 0x64, 0x74, 0x70⟩, tStco, tStsc, tStts, ⟨0x73, 0x74, 0x73, 0x73⟩, tStsz, ⟨0x74, 0x66, 0x72, 0x61⟩, tTrun] : List BoxType).map BoxType.bytes := by
    decide +kernel
  rw [e]
  unfold noChildren
  rw [List.any_eq_true]
  constructor
  · rintro ⟨x, hx, hd⟩
    rw [of_decide_eq_true hd]
    exact List.mem_map.2 ⟨x, hx, rfl⟩
  · intro h
    obtain ⟨x, hx, he⟩ := List.mem_map.1 h
    refine ⟨x, hx, decide_eq_true ?_⟩
    obtain ⟨a, b, c, e⟩ := t
    obtain ⟨a', b', c', e'⟩ := x
    simp only [BoxType.bytes, List.cons.injEq, and_true] at he
    obtain ⟨h1, h2, h3, h4⟩ := he
    subst h1 h2 h3 h4
    rfl

theorem largeTable_iff (bi : BoxInfo) : LargeTable bi ↔ (256 ≤ bi.size ∧ noChildren bi.type = true) := by
  unfold LargeTable
  rw [noChildren_iff]

/-- what the handler writes -/
def written (d : Bytes) (t : BoxType) (x : Handle Unit) (out : Bytes) : Bytes := if x.info.type = t then out ++ copied d x.info else out

/-- does it expand? -/
def goesDown (x : Handle Unit) : Bool := BoxMap.std.isSupported x.info.type x.info.ctx && !(decide (256 ≤ x.info.size) && noChildren x.info.type)

theorem copied_eq {bi : BoxInfo} (h : bi.offset + bi.size ≤ d.length) (hd : d.length ≤ 2 ^ 48) :
    copied d bi = rawBytes d bi ∧ (copied d bi).length = bi.size ∧ int64 bi.size = bi.size := by
  have e : int64 bi.size = bi.size := by
    unfold int64
    rw [Nat.mod_eq_of_lt (by simp only [U64]; omega), if_pos (by omega)]
  unfold copied rawBytes
  rw [e]
  exact ⟨rfl, by simp; omega, rfl⟩

/-- the part of the handler that writes -/
theorem extractTool_run (hd : d.length ≤ 2 ^ 48) {t : BoxType} {x : Handle Unit} (h : x.info.offset + x.info.size ≤ d.length)
    (children : Nat → Unit → TM Bytes Unit (List Unit)) (st : TSt Bytes Unit) :
    ∃ q, runProg BoxMap.std d x.path x.info children (extractTool d t x) 0 st =
      runProg BoxMap.std d x.path x.info children (descend x.info) 0 ⟨q, written d t x st.user, st.log⟩ := by
  obtain ⟨-, e2, e3⟩ := copied_eq h hd
  unfold extractTool written
  by_cases ht : x.info.type = t
  · refine ⟨x.info.offset + (copied d x.info).length, ?_⟩
    rw [if_pos ht, if_pos ht, runProg, M.bind_ok (M.get_run _), M.bind_ok (M.modify_run _ _), runProg, M.bind_ok (M.get_run _), runProg,
      M.bind_ok (M.modify_run _ _), if_neg (by rw [e2, e3]; omega)]
  · exact ⟨st.pos, by rw [if_neg ht, if_neg ht]⟩

theorem descend_stays {bi : BoxInfo} (h : BoxMap.std.isSupported bi.type bi.ctx = false ∨ LargeTable bi) : descend bi = .ret () := by
  unfold descend
  rcases h with h | h
  · rw [if_pos (by rw [h]; rfl)]
  · split
    · rfl
    · rw [if_pos ((largeTable_iff bi).1 h)]

theorem descend_expands {x : Handle Unit} (h : goesDown x = true) : descend x.info = .expand () expanded := by
  unfold goesDown at h
  unfold descend
  rw [Bool.and_eq_true] at h
  rw [if_neg (by rw [h.1]; decide), if_neg]
  rintro ⟨h1, h2⟩
  rw [decide_eq_true h1, h2] at h
  exact absurd h.2 (by decide)

theorem goesDown_false {x : Handle Unit} (h : goesDown x = false) :
    BoxMap.std.isSupported x.info.type x.info.ctx = false ∨ LargeTable x.info := by
  unfold goesDown at h
  cases hs : BoxMap.std.isSupported x.info.type x.info.ctx with
  | false => exact .inl rfl
  | true =>
    rw [hs] at h
    simp at h
    exact .inr ((largeTable_iff _).2 h)

/-- `Expand` of a box of an unknown version -/
theorem expand_badVersion {S P V : Type} {bi : BoxInfo} (hd : d.length ≤ maxAlloc) (hin : bi.offset + bi.headerSize ≤ d.length)
    (hb : BadVersion d bi) {path : List BoxType} {children : Nat → P → TM S V (List V)} {q : P} {k : Except Err (List V) → Prog S P V}
    (st : TSt S V) : ∃ p, runProg BoxMap.std d path bi children (.expand q k) 0 st =
      runProg BoxMap.std d path bi children (k (.error .unsupportedVersion)) 0 { st with pos := p } := by
  obtain ⟨p, hp⟩ := hb
  refine ⟨p, ?_⟩
  have he : expandStart BoxMap.std d bi 0 st.pos = (.err .unsupportedVersion, p) := by
    unfold expandStart
    rw [if_pos rfl, M.bind_err ((readPayloadP_ok hd hin st.pos).trans hp)]
  have e1 : (tryM (liftP (expandStart BoxMap.std d bi 0)) : TM S V _) st = (.ok (.error .unsupportedVersion), { st with pos := p }) := by
    unfold tryM; rw [liftP_run, he]
  rw [runProg, M.bind_ok e1]

theorem acts_of_understood (hd : d.length ≤ 2 ^ 48) (t : BoxType) : ∀ (F : Forest) {isRoot : Bool} {path : List BoxType} {ctx : Ctx} {pos total : Nat},
    F.WF d isRoot path ctx pos total → Understood d F →
    Acts d (extractTool d t) (written d t) goesDown (fun _ => ()) (fun _ _ => ()) path () F := by
  intro F
  induction F with
  | nil => intros; trivial
  | leaf bi rest ih =>
    intro isRoot path ctx pos total hwf hu
    obtain ⟨hp, hwf⟩ := hwf
    obtain ⟨hl, hu⟩ := hu
    refine ⟨?_, ih hwf hu⟩
    intro children st _
    obtain ⟨q, e⟩ := extractTool_run hd (t := t) (x := ⟨(), bi, path ++ [bi.type]⟩) (by have := hp.inFile; rw [hp.offset]; exact this) children st
    rw [e]
    obtain ⟨-, hb⟩ := placed_header (show d.length ≤ maxAlloc from hd) hp
    by_cases hs : BoxMap.std.isSupported bi.type bi.ctx = false ∨ LargeTable bi
    · rw [descend_stays hs]
      exact ⟨_, rfl, rfl⟩
    · rw [descend_expands (x := ⟨(), bi, path ++ [bi.type]⟩) (by
        cases hg : goesDown ⟨(), bi, path ++ [bi.type]⟩ with
        | true => rfl
        | false => exact absurd (goesDown_false hg) hs)]
      obtain ⟨p, e2⟩ := expand_badVersion (show d.length ≤ maxAlloc from hd) hb.inside (by
        rcases hl with h | h | h
        · exact absurd (.inl h) hs
        · exact absurd (.inr h) hs
        · exact h) (path := path ++ [bi.type]) (children := children) (q := ()) (k := expanded)
          ⟨q, written d t ⟨(), bi, path ++ [bi.type]⟩ st.user, st.log⟩
      simp only
      rw [e2]
      exact ⟨_, rfl, rfl⟩
  | node bi n kids rest ihk ih =>
    intro isRoot path ctx pos total hwf hu
    obtain ⟨hp, hn, hwk, hwf⟩ := hwf
    obtain ⟨hl, huk, hu⟩ := hu
    obtain ⟨-, hb⟩ := placed_header (show d.length ≤ maxAlloc from hd) hp
    refine ⟨?_, ?_, ih hwf hu⟩
    · intro hg children st _
      obtain ⟨q, e⟩ := extractTool_run hd (t := t) (x := ⟨(), bi, path ++ [bi.type]⟩) (by have := hp.inFile; rw [hp.offset]; exact this) children st
      rw [e, descend_stays (goesDown_false hg)]
      exact ⟨_, rfl, rfl⟩
    · intro hg
      refine ⟨?_, ihk hwk huk⟩
      intro children st st2 vs _ hc
      obtain ⟨q, e⟩ := extractTool_run hd (t := t) (x := ⟨(), bi, path ++ [bi.type]⟩) (by have := hp.inFile; rw [hp.offset]; exact this) children st
      rw [e, descend_expands hg]
      have := runProg_expand (show d.length ≤ maxAlloc from hd) hb.inside hn (path := path ++ [bi.type]) (k := expanded) (q := ())
        (st := ⟨q, written d t ⟨(), bi, path ++ [bi.type]⟩ st.user, st.log⟩) hc
      rw [this]
      exact ⟨_, rfl, rfl⟩

theorem written_fold (hd : d.length ≤ 2 ^ 48) (t : BoxType) : ∀ (F : Forest) {isRoot : Bool} {path : List BoxType} {ctx : Ctx} {pos total : Nat}
    (parent : Option BoxInfo) (out : Bytes), F.WF d isRoot path ctx pos total → Understood d F →
    (F.visited goesDown (fun _ => ()) parent path ()).foldl (fun s x => written d t x.2 s) out =
      out ++ ((F.boxes parent path).filter (fun x => x.2.2.type = t)).flatMap (fun x => rawBytes d x.2.2) := by
  intro F
  induction F with
  | nil => intros; simp [Forest.visited, Forest.boxes]
  | leaf bi rest ih =>
    intro isRoot path ctx pos total parent out hwf hu
    obtain ⟨hp, hwf⟩ := hwf
    have e := (copied_eq (d := d) (bi := bi) (by have := hp.inFile; rw [hp.offset]; exact this) hd).1
    simp only [Forest.visited, Forest.boxes, List.foldl_cons, List.filter_cons]
    rw [ih parent _ hwf hu.2]
    unfold written
    by_cases ht : bi.type = t
    · simp [ht, e]
    · simp [ht]
  | node bi n kids rest ihk ih =>
    intro isRoot path ctx pos total parent out hwf hu
    obtain ⟨hp, hn, hwk, hwf⟩ := hwf
    obtain ⟨hl, huk, hu⟩ := hu
    have e := (copied_eq (d := d) (bi := bi) (by have := hp.inFile; rw [hp.offset]; exact this) hd).1
    simp only [Forest.visited, Forest.boxes, List.foldl_cons, List.filter_cons, List.foldl_append, List.filter_append]
    rw [ih parent _ hwf hu]
    have hk : (if goesDown ⟨(), bi, path ++ [bi.type]⟩ = true then kids.visited goesDown (fun _ => ()) (some bi) (path ++ [bi.type]) () else []) =
        kids.visited goesDown (fun _ => ()) (some bi) (path ++ [bi.type]) () := by
      split
      · rfl
      · next hg =>
        rcases goesDown_false (eq_false_of_ne_true hg) with h | h
        · have := payloadN_supported hn
          rw [this] at h
          cases h
        · rw [hl h]
          rfl
    rw [hk, ihk (some bi) _ hwk huk]
    unfold written
    by_cases ht : bi.type = t
    · simp [ht, e]
    · simp [ht]

/-- **C58**, well-formed files — `mp4tool extract` writes the bytes of all boxes of the type asked for, in the order of the file, and
nothing else. -/
theorem extract_tool_writes (hd : d.length ≤ 2 ^ 48) (F : Forest) (hF : F.WF d true [] {} 0 0) (hu : Understood d F) (t : BoxType)
    (fuel : Nat) (hf : F.count < fuel) : extract d t fuel = (.ok (), allOfType d t F) := by
  obtain ⟨st, e, hs⟩ := visit_file (show d.length ≤ maxAlloc from hd) hF (acts_of_understood hd t F hF hu) hf 0 [] []
  unfold extract
  rw [e]
  simp only
  rw [hs, written_fold hd t F none [] hF hu]
  rfl

/-! ## Arbitrary files -/

theorem gathers_descend {t : BoxType} {path : List BoxType} {bi : BoxInfo} {children : Nat → Unit → TM Bytes Unit (List Unit)}
    (hc : ∀ co p, Gathers (Noted (written d t) []) (children co p)) :
    Gathers (Noted (written d t) []) (runProg BoxMap.std d path bi children (descend bi) 0) := by
  unfold descend
  split
  · exact gathers_pure ()
  split
  · exact gathers_pure ()
  refine noted_expand hc (fun r co => ?_) 0
  cases r with
  | ok _ => exact gathers_pure ()
  | error e =>
    simp only [expanded]
    by_cases h : e = .unsupportedVersion
    · rw [if_pos h]; exact gathers_pure ()
    · rw [if_neg h]; exact gathers_fail e

theorem extractTool_notes (t : BoxType) : Notes BoxMap.std d (extractTool d t) (written d t) [] := by
  intro x children hc st hs hx
  have hw : ∀ q, Noted (written d t) [] (⟨q, written d t x st.user, st.log⟩ : TSt Bytes Unit) := by
    intro q
    show written d t x st.user = (calls st.log).foldl (fun s x => written d t x s) []
    rw [hx, List.foldl_append, ← hs]
    rfl
  unfold extractTool
  by_cases ht : x.info.type = t
  · rw [if_pos ht, runProg, M.bind_ok (M.get_run _), M.bind_ok (M.modify_run _ _), runProg, M.bind_ok (M.get_run _), runProg,
      M.bind_ok (M.modify_run _ _)]
    have := hw (x.info.offset + (copied d x.info).length)
    unfold written at this
    rw [if_pos ht] at this
    split
    · exact gathers_fail _ _ this
    · exact gathers_descend hc _ this
  · rw [if_neg ht]
    have := hw st.pos
    unfold written at this
    rw [if_neg ht] at this
    exact gathers_descend hc _ this

theorem written_calls (t : BoxType) (l : List (Handle Unit)) (out : Bytes) :
    l.foldl (fun s x => written d t x s) out = out ++ (l.filter (fun x => x.info.type = t)).flatMap (fun x => copied d x.info) := by
  induction l generalizing out with
  | nil => simp
  | cons x l ih =>
    rw [List.foldl_cons, ih, List.filter_cons]
    unfold written
    by_cases ht : x.info.type = t
    · simp [ht]
    · simp [ht]

theorem mem_calls {V : Type} {L : List (Ev V)} {x : Handle Unit} (h : x ∈ calls L) : ∃ par, .enter par x.path x.info ∈ L := by
  induction L with
  | nil => cases h
  | cons ev L ih =>
    cases ev with
    | enter par path bi =>
      rcases List.mem_cons.1 h with rfl | h
      · exact ⟨par, List.mem_cons_self⟩
      · obtain ⟨p, hp⟩ := ih h; exact ⟨p, List.mem_cons_of_mem _ hp⟩
    | openBox => obtain ⟨p, hp⟩ := ih h; exact ⟨p, List.mem_cons_of_mem _ hp⟩
    | closeBox => obtain ⟨p, hp⟩ := ih h; exact ⟨p, List.mem_cons_of_mem _ hp⟩
    | leave => obtain ⟨p, hp⟩ := ih h; exact ⟨p, List.mem_cons_of_mem _ hp⟩

/-- The bytes of a box as far as they are in the file; the size is taken as an `int64`, so that those of 2^63 bytes or more count as
empty. -/
def availBytes (d : Bytes) (bi : BoxInfo) : Bytes := if bi.size < 2 ^ 63 then (d.drop bi.offset).take bi.size else []

theorem copied_avail {bi : BoxInfo} (h : bi.size < U64) : copied d bi = availBytes d bi := by
  unfold copied availBytes int64
  rw [Nat.mod_eq_of_lt h]
  split
  · rfl
  · next hs =>
    have : ((bi.size : Int) - U64).toNat = 0 := by simp only [U64] at *; omega
    rw [this]
    rfl

/-- All boxes written so far are complete. -/
def Complete (d : Bytes) (t : BoxType) (st : TSt Bytes Unit) : Prop :=
  ∀ x ∈ calls st.log, x.info.type = t → int64 x.info.size ≤ (copied d x.info).length

/-- not a success, and not an error that the tool ignores -/
def Fatal {α : Type} : Out α → Prop
  | .ok _ => False
  | .err e => e ≠ .unsupportedVersion
  | .panic => True
  | .hang => True

/-- After an incomplete box the tool fails. -/
def Watches {α : Type} (d : Bytes) (t : BoxType) (m : TM Bytes Unit α) : Prop := ∀ s, Complete d t s → Complete d t (m s).2 ∨ Fatal (m s).1

section
variable {α β : Type} {t : BoxType}

theorem watches_bind {m : TM Bytes Unit α} {f : α → TM Bytes Unit β} (hm : Watches d t m) (hf : ∀ a, Watches d t (f a)) : Watches d t (m >>= f) := by
  intro s hs
  have h := hm s hs
  cases e : m s with
  | mk o s1 =>
    rw [e] at h
    cases o with
    | ok a =>
      rw [M.bind_ok e]
      rcases h with h | h
      · exact hf a s1 h
      · cases h
    | err x =>
      rw [M.bind_err e]
      exact h
    | panic => exact .inr (by rw [M.bind_panic e]; trivial)
    | hang => exact .inr (by rw [M.bind_hang e]; trivial)

theorem watches_of {m : TM Bytes Unit α} (h : ∀ s, calls (m s).2.log = calls s.log) : Watches d t m := by
  intro s hs
  refine .inl ?_
  intro x hx
  rw [h s] at hx
  exact hs x hx

theorem watches_liftP (m : PM α) : Watches d t (liftP m : TM Bytes Unit α) := watches_of fun s => by rw [liftP_run]
theorem watches_tryLift (m : PM α) : Watches d t (tryM (liftP m) : TM Bytes Unit (Except Err α)) := watches_of fun s => by
  unfold tryM
  rw [liftP_run]
  generalize m s.pos = x
  obtain ⟨o, p⟩ := x
  cases o <;> rfl
theorem watches_pure (a : α) : Watches d t (pure a : TM Bytes Unit α) := watches_of fun _ => rfl
theorem watches_fail (e : Err) : Watches d t (M.fail e : TM Bytes Unit α) := watches_of fun _ => rfl
theorem watches_emit {ev : Ev Unit} (he : calls [ev] = []) : Watches d t (emit ev : TM Bytes Unit Unit) := watches_of fun s => by
  show calls (s.log ++ [ev]) = _
  rw [calls_append, he, List.append_nil]

/-- an outcome is looked at, and an error that is not ignored leads to an error -/
theorem watches_try {m : TM Bytes Unit α} {k : Except Err α → TM Bytes Unit β} (hm : Watches d t m) (hk : ∀ r, Watches d t (k r))
    (he : ∀ e s, e ≠ .unsupportedVersion → Fatal ((k (.error e)) s).1) : Watches d t (tryM m >>= k) := by
  intro s hs
  have h := hm s hs
  cases e : m s with
  | mk o s1 =>
    rw [e] at h
    cases o with
    | ok a =>
      have ht : tryM m s = (.ok (.ok a), s1) := by unfold tryM; rw [e]
      rw [M.bind_ok ht]
      rcases h with h | h
      · exact hk _ s1 h
      · cases h
    | err x =>
      have ht : tryM m s = (.ok (.error x), s1) := by unfold tryM; rw [e]
      rw [M.bind_ok ht]
      rcases h with h | h
      · exact hk _ s1 h
      · exact .inr (he x s1 h)
    | panic =>
      have ht : tryM m s = (.panic, s1) := by unfold tryM; rw [e]
      exact .inr (by rw [M.bind_panic ht]; trivial)
    | hang =>
      have ht : tryM m s = (.hang, s1) := by unfold tryM; rw [e]
      exact .inr (by rw [M.bind_hang ht]; trivial)

theorem watches_expanded {path : List BoxType} {bi : BoxInfo} {children : Nat → Unit → TM Bytes Unit (List Unit)} (r : Except Err (List Unit))
    (co : Nat) : Watches d t (runProg BoxMap.std d path bi children (expanded r) co) := by
  cases r with
  | ok _ => exact watches_pure ()
  | error e =>
    simp only [expanded]
    by_cases h : e = .unsupportedVersion
    · rw [if_pos h]; exact watches_pure ()
    · rw [if_neg h]; exact watches_fail e

theorem watches_descend {path : List BoxType} {bi : BoxInfo} {children : Nat → Unit → TM Bytes Unit (List Unit)}
    (hc : ∀ co p, Watches d t (children co p)) : Watches d t (runProg BoxMap.std d path bi children (descend bi) 0) := by
  unfold descend
  split
  · exact watches_pure ()
  split
  · exact watches_pure ()
  rw [runProg]
  refine watches_bind (watches_tryLift _) fun r => ?_
  cases r with
  | error e => exact watches_expanded _ _
  | ok co' =>
    refine watches_bind (watches_emit rfl) fun _ => watches_try (hc _ _) (fun r => watches_bind (watches_emit rfl) fun _ => watches_expanded _ _) ?_
    intro e s he
    rw [M.bind_ok (emit_run _ _)]
    simp only [expanded]
    rw [if_neg he]
    exact he

/-- the handler, called with its box noted -/
theorem watches_handler (x : Handle Unit) {children : Nat → Unit → TM Bytes Unit (List Unit)} (hc : ∀ co p, Watches d t (children co p))
    {st st1 : TSt Bytes Unit} (h : Complete d t st) (hx : calls st1.log = calls st.log ++ [x]) :
    Complete d t (runProg BoxMap.std d x.path x.info children (extractTool d t x) 0 st1).2 ∨
      Fatal (runProg BoxMap.std d x.path x.info children (extractTool d t x) 0 st1).1 := by
  have hw : (x.info.type = t → int64 x.info.size ≤ (copied d x.info).length) → ∀ s : TSt Bytes Unit, s.log = st1.log → Complete d t s := by
    intro hi s hs y hy
    rw [hs, hx] at hy
    rcases List.mem_append.1 hy with hy | hy
    · exact h y hy
    · rw [List.mem_singleton.1 hy]; exact hi
  unfold extractTool
  by_cases ht : x.info.type = t
  · rw [if_pos ht, runProg, M.bind_ok (M.get_run _), M.bind_ok (M.modify_run _ _), runProg, M.bind_ok (M.get_run _), runProg,
      M.bind_ok (M.modify_run _ _)]
    by_cases hl : ((copied d x.info).length : Int) < int64 x.info.size
    · rw [if_pos hl]
      exact .inr (by show Err.eof ≠ _; decide)
    · rw [if_neg hl]
      exact watches_descend hc _ (hw (fun _ => by omega) _ rfl)
  · rw [if_neg ht]
    exact watches_descend hc _ (hw (fun h => absurd h ht) _ rfl)

theorem watches_fromInternal {rec : BoxInfo → Nat → List BoxType → Ctx → Unit → TM Bytes Unit (List Unit)}
    (hrec : ∀ bi total path ctx p, Watches d t (rec bi total path ctx p))
    (parent : Option BoxInfo) (bi : BoxInfo) (path : List BoxType) (p : Unit) :
    Watches d t (fromInternal BoxMap.std d (extractTool d t) rec parent bi path p) := by
  unfold fromInternal
  refine watches_bind (watches_liftP _) fun _ => watches_bind (watches_liftP _) fun bi1 => watches_bind (watches_liftP _) fun bi2 => ?_
  intro st hst
  have e1 : (emit (.enter parent (path ++ [bi2.type]) bi2) : TM Bytes Unit Unit) st =
      (.ok (), { st with log := st.log ++ [.enter parent (path ++ [bi2.type]) bi2] }) := rfl
  simp only
  rw [M.bind_ok e1]
  have hr := watches_handler ⟨p, bi2, path ++ [bi2.type]⟩
    (children := fun co p => rec bi2 (sub64 (add64 bi2.offset bi2.size) co) (path ++ [bi2.type]) (childCtx bi2) p)
    (fun co p => hrec _ _ _ _ _) (st1 := { st with log := st.log ++ [.enter parent (path ++ [bi2.type]) bi2] }) hst
    (by simp only [calls_append]; rfl)
  have rest : ∀ r : Except Err Unit, Watches d t (do
      emit (.leave parent (path ++ [bi2.type]) bi2 r)
      let v ← ofExcept r
      let _ ← liftP bi2.seekToEnd
      pure (v, bi2) : TM Bytes Unit (Unit × BoxInfo)) := fun r =>
    watches_bind (watches_emit rfl) fun _ => watches_bind (by
      cases r with
      | ok a => exact watches_pure a
      | error e => exact watches_fail e) fun v => watches_bind (watches_liftP _) fun _ => watches_pure _
  simp only at hr
  generalize hx : runProg BoxMap.std d (path ++ [bi2.type]) bi2
    (fun co p => rec bi2 (sub64 (add64 bi2.offset bi2.size) co) (path ++ [bi2.type]) (childCtx bi2) p)
    (extractTool d t ⟨p, bi2, path ++ [bi2.type]⟩) 0 = x at hr ⊢
  generalize ({ st with log := st.log ++ [.enter parent (path ++ [bi2.type]) bi2] } : TSt Bytes Unit) = st1 at hr ⊢
  cases hy : x st1 with
  | mk o st2 =>
    rw [hy] at hr
    cases o with
    | ok a =>
      have ht : tryM x st1 = (.ok (.ok a), st2) := by unfold tryM; rw [hy]
      rw [M.bind_ok ht]
      rcases hr with h | h
      · exact rest _ st2 h
      · cases h
    | err e =>
      have ht : tryM x st1 = (.ok (.error e), st2) := by unfold tryM; rw [hy]
      rw [M.bind_ok ht]
      rcases hr with h | h
      · exact rest _ st2 h
      · refine .inr ?_
        rw [M.bind_ok (emit_run _ _)]
        exact h
    | panic =>
      have ht : tryM x st1 = (.panic, st2) := by unfold tryM; rw [hy]
      exact .inr (by rw [M.bind_panic ht]; trivial)
    | hang =>
      have ht : tryM x st1 = (.hang, st2) := by unfold tryM; rw [hy]
      exact .inr (by rw [M.bind_hang ht]; trivial)

theorem watches_readStructure : ∀ (f : Nat) (parent : Option BoxInfo) (total : Nat) (isRoot : Bool) (path : List BoxType)
    (ctx : Ctx) (p : Unit), Watches d t (readStructure BoxMap.std d (extractTool d t) f parent total isRoot path ctx p)
  | 0, _, _, _, _, _, _ => fun _ _ => .inr trivial
  | f + 1, parent, total, isRoot, path, ctx, p => by
    rw [readStructure]
    split
    · refine watches_bind (watches_tryLift _) fun r => ?_
      cases r with
      | error e =>
        simp only
        split
        · exact watches_pure _
        · exact watches_fail _
      | ok bi =>
        simp only
        split
        · exact watches_fail _
        · exact watches_bind (watches_fromInternal (fun _ _ _ _ _ => watches_readStructure f _ _ _ _ _ _) _ _ _ _) fun x =>
            watches_bind (watches_readStructure f _ _ _ _ _ _) fun _ => watches_pure _
    · split
      · exact watches_fail _
      · exact watches_pure _

end

/-- **C58**, arbitrary files — Whatever the file, `mp4tool extract` does not panic, and all that it writes, also before an error, are bytes of
boxes of the type asked for that stand in the file: one gets to each of them from the root by going down through boxes.  If it succeeds, none of
them is cut off by the end of the file. -/
theorem extract_tool_sound (hd : d.length ≤ 2 ^ 48) (t : BoxType) (fuel : Nat) :
    (extract d t fuel).1 ≠ .panic ∧
    ∃ bs : List BoxInfo, (extract d t fuel).2 = bs.flatMap (availBytes d) ∧
      (∀ b ∈ bs, b.type = t ∧ ∃ path, Leads d none path b) ∧
      ((extract d t fuel).1 = .ok () → ∀ b ∈ bs, b.size < 2 ^ 63 → b.offset + b.size ≤ d.length) := by
  have hT := traverse_tr hd (extractTool d t) fuel () [] 0
  have hF := traverse_facts hd (extractTool d t) fuel () [] 0
  have hC := noted_readBoxStructure (extractTool_notes (d := d) t) fuel () 0
  have hW : Watches d t (readBoxStructure BoxMap.std d (extractTool d t) fuel ()) := by
    unfold readBoxStructure
    exact watches_bind (watches_liftP _) (fun _ => watches_readStructure _ _ _ _ _ _ _)
  have hW := hW ⟨0, [], []⟩ (by intro x hx; cases hx)
  unfold traverse at hT hF
  unfold extract
  generalize readBoxStructure BoxMap.std d (extractTool d t) fuel () ⟨0, [], []⟩ = x at hT hF hC hW
  obtain ⟨o, st⟩ := x
  have key : ∃ bs : List BoxInfo, st.user = bs.flatMap (availBytes d) ∧ (∀ b ∈ bs, b.type = t ∧ ∃ path, Leads d none path b) ∧
      (o.isOk → ∀ b ∈ bs, b.size < 2 ^ 63 → b.offset + b.size ≤ d.length) := by
    refine ⟨((calls st.log).filter (fun x => x.info.type = t)).map (·.info), ?_, ?_, ?_⟩
    · rw [show st.user = _ from hC, written_calls, List.nil_append, List.flatMap_map]
      refine congrArg List.flatten (List.map_congr_left fun x hx => ?_)
      obtain ⟨par, hm⟩ := mem_calls (List.mem_filter.1 hx).1
      exact copied_avail (hF _ hm).1.lt
    · intro b hb
      obtain ⟨x, hx, rfl⟩ := List.mem_map.1 hb
      obtain ⟨hx, ht⟩ := List.mem_filter.1 hx
      obtain ⟨par, hm⟩ := mem_calls hx
      obtain ⟨rest, -, hl⟩ := tr_reached (start := none) (base := []) hT hF .root (.inl ⟨rfl, rfl⟩) par x.path x.info hm
      exact ⟨of_decide_eq_true ht, rest, hl⟩
    · intro ho b hb hsz
      obtain ⟨x, hx, rfl⟩ := List.mem_map.1 hb
      obtain ⟨hx, ht⟩ := List.mem_filter.1 hx
      obtain ⟨par, hm⟩ := mem_calls hx
      cases o with
      | ok vs =>
        rcases hW with hW | hW
        · have h1 := hW x hx (of_decide_eq_true ht)
          have hh := (hF _ hm).1
          rw [copied_avail hh.lt] at h1
          have hin := hh.inside
          unfold int64 availBytes at h1
          rw [Nat.mod_eq_of_lt hh.lt, if_pos hsz, if_pos hsz] at h1
          simp only [List.length_take, List.length_drop] at h1
          omega
        · cases hW
      | err e => cases ho
      | panic => cases ho
      | hang => cases ho
  obtain ⟨bs, k1, k2, k3⟩ := key
  cases o with
  | panic => exact absurd rfl (tr_no_panic hT)
  | ok _ => exact ⟨by simp, bs, k1, k2, fun _ => k3 rfl⟩
  | err _ => exact ⟨by simp, bs, k1, k2, by simp⟩
  | hang => exact ⟨by simp, bs, k1, k2, by simp⟩

/-! ## Files that meet the conditions -/

/-- `moov` { `mvhd` of version 9, `xxxx` }, `xxxx` -/
def toolFile : Bytes := [0, 0, 0, 28, 0x6d, 0x6f, 0x6f, 0x76, 0, 0, 0, 12, 0x6d, 0x76, 0x68, 0x64, 9, 0, 0, 0,
  0, 0, 0, 8, 0x78, 0x78, 0x78, 0x78, 0, 0, 0, 9, 0x78, 0x78, 0x78, 0x78, 7]

/-- its boxes -/
def toolForest : Forest :=
  .node ⟨0, 28, 8, ⟨0x6d, 0x6f, 0x6f, 0x76⟩, false, {}⟩ 0
    (.leaf ⟨8, 12, 8, ⟨0x6d, 0x76, 0x68, 0x64⟩, false, {}⟩ (.leaf ⟨20, 8, 8, ⟨0x78, 0x78, 0x78, 0x78⟩, false, {}⟩ .nil))
    (.leaf ⟨28, 9, 8, ⟨0x78, 0x78, 0x78, 0x78⟩, false, {}⟩ .nil)

theorem toolFile_wf : toolForest.WF toolFile true [] {} 0 0 := by
  refine ⟨⟨rfl, by decide +kernel, by decide, by decide, .inl rfl, ownCtx_plain rfl (by decide) (by decide)⟩,
    payloadN_of (by decide +kernel), ⟨⟨rfl, by decide +kernel, by decide, by decide, .inr (by decide),
      ownCtx_plain rfl (by decide) (by decide)⟩, ⟨rfl, by decide +kernel, by decide, by decide, .inr (by decide),
      ownCtx_plain rfl (by decide) (by decide)⟩, .inl rfl⟩,
    ⟨⟨rfl, by decide +kernel, by decide, by decide, .inl rfl, ownCtx_plain rfl (by decide) (by decide)⟩, rfl⟩⟩

theorem badVersion_of {bi : BoxInfo} (h : (match (BoxMap.std.unmarshalAny d bi.type (sub64 bi.size bi.headerSize) bi.ctx (bi.offset + bi.headerSize)).1 with
      | .err e => decide (e = .unsupportedVersion)
      | _ => false) = true) : BadVersion d bi := by
  unfold BadVersion
  generalize BoxMap.std.unmarshalAny d bi.type (sub64 bi.size bi.headerSize) bi.ctx (bi.offset + bi.headerSize) = x at h
  obtain ⟨o, p⟩ := x
  cases o with
  | err e => exact ⟨p, by rw [of_decide_eq_true h]⟩
  | ok a => cases h
  | panic => cases h
  | hang => cases h

theorem toolFile_understood : Understood toolFile toolForest :=
  ⟨fun _ => absurd ‹LargeTable _›.1 (by decide), ⟨.inr (.inr (badVersion_of (by decide +kernel))), .inl (by decide +kernel), trivial⟩,
    .inl (by decide +kernel), trivial⟩

example : allOfType toolFile ⟨0x78, 0x78, 0x78, 0x78⟩ toolForest = toolFile.drop 20 := by decide

example : extract toolFile ⟨0x78, 0x78, 0x78, 0x78⟩ 5 = (.ok (), toolFile.drop 20) :=
  (extract_tool_writes (by decide) toolForest toolFile_wf toolFile_understood _ 5 (by decide)).trans (by decide)

/-- the second box is cut off -/
example : extract (toolFile.take 36) ⟨0x78, 0x78, 0x78, 0x78⟩ 5 = (.err .eof, (toolFile.drop 20).take 16) := by decide +kernel

end Mp4.Props
