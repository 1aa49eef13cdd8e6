import Verif.Lemmas.Calls
import Verif.Lemmas.Divide
import Verif.Props.Terminate
import Verif.Props.Forest
import Verif.Model.Tool
import Verif.Model.Edit
import Verif.Model.Rewrite

/-!
# C77: how often and how deeply a handler is called

The boxes a handler is called for have their headers in the file, one behind the other; so there cannot be more of them than an eighth of
its length, and they cannot be nested more deeply.  The second holds for every handler, the first for handlers that call `Expand` at most
once for a box, as those of the library and of `mp4tool` do.  Both bounds are reached: `nested_reaches_bounds`.  In
particular there is no other limit to the depth of recursion.
-/

namespace Mp4.Props

open Mp4

variable {S P V : Type} {d : Bytes}

/-- **C77** — The number of calls of a handler that calls `Expand` at most once for each box is at most an eighth of the length of the file;
whether the traversal succeeds, fails or has not yet ended.  No visited box may announce a size that does not cover its header or an end
behind 2^64 (see C23 for what happens then). -/
theorem calls_bounded (hd : d.length ≤ 2 ^ 48) {h : Handler S P V} (hh : ExpandsOnce h) (fuel : Nat) (p : P) (s : S) (pos : Nat)
    (hreg : ∀ parent path bi, .enter parent path bi ∈ (traverse d h fuel p s pos).2.log → Regular bi) :
    8 * (enters (traverse d h fuel p s pos).2.log).length ≤ d.length := by
  have := tr_calls (show d.length ≤ maxAlloc from hd) (traverse_tr hd h fuel p s pos) hreg (by decide) (.inl rfl) [] (once_scan hh fuel p pos s)
  simpa using this

/-- **C77** — For every handler: the path of a box it is called for has at most as many elements as headers fit in the file up to and
including that of the box. -/
theorem depth_bounded (hd : d.length ≤ 2 ^ 48) (h : Handler S P V) (fuel : Nat) (p : P) (s : S) (pos : Nat)
    (hreg : ∀ parent path bi, .enter parent path bi ∈ (traverse d h fuel p s pos).2.log → Regular bi) :
    ∀ x ∈ enters (traverse d h fuel p s pos).2.log, 8 * x.2.1.length ≤ x.2.2.offset + 8 ∧ x.2.2.offset + 8 ≤ d.length :=
  tr_depth (traverse_tr hd h fuel p s pos) hreg (Nat.zero_le _)

/-! ## The handlers of the library and of mp4tool -/

theorem walker_once (note : Handle P → S → S) (want : Handle P → Bool) (sub : Handle P → P) (val : Handle P → List V → V) :
    ExpandsOnce (walker note want sub val) := by
  intro x s
  by_cases hw : want x = true
  · show Prog.AtMost 1 (if want x = true then _ else _)
    rw [if_pos hw]
    rintro (e | vs) <;> trivial
  · show Prog.AtMost 1 (if want x = true then _ else _)
    rw [if_neg hw]
    trivial

/-- `ExtractBoxes` -/
theorem extract_once (below : Bool) (paths : List (List BoxType)) : ExpandsOnce (extractHandler below paths) := by
  intro x
  unfold extractHandler
  simp only
  generalize (if below = true then List.drop 1 x.path else x.path) = path
  split
  · trivial
  · intro s
    show Prog.AtMost 1 (if _ then _ else _)
    split
    · rintro (e | vs) <;> trivial
    · trivial

/-- `mp4tool extract` -/
theorem extractTool_once (d : Bytes) (t : BoxType) : ExpandsOnce (Tool.extractTool d t) := by
  intro x
  have hdesc : Prog.AtMost 1 (Tool.descend x.info) := by
    unfold Tool.descend
    split
    · trivial
    · split
      · trivial
      · rintro (e | vs)
        · show Prog.AtMost 0 (if _ then _ else _)
          split <;> trivial
        · trivial
  unfold Tool.extractTool
  split
  · intro _ _
    show Prog.AtMost 1 (if _ then _ else _)
    split
    · trivial
    · exact hdesc
  · exact hdesc

/-- `mp4tool dump` -/
theorem dumpTool_once (cfg : Tool.DumpCfg) : ExpandsOnce (Tool.dumpTool cfg) := by
  intro x
  have hpr : ∀ {n line} {k : Tool.DProg}, k.AtMost n → (Tool.println line k).AtMost n := by
    intro n line k hk
    cases n <;> exact fun _ => hk
  have hpan : (Tool.panics).AtMost 1 := fun _ => trivial
  have hraw : ∀ bi full line, (Tool.dumpRaw bi full line).AtMost 1 := by
    intro bi full line
    unfold Tool.dumpRaw
    split
    · split
      · exact hpan
      · rintro (e | n) b
        · trivial
        · exact hpr trivial
    · exact hpr trivial
  unfold Tool.dumpTool
  simp only
  split
  · exact hpr trivial
  · split
    · split
      · exact hpr trivial
      · rintro (e | ⟨box, n⟩)
        · show Prog.AtMost 1 (if _ then _ else _)
          split
          · exact hraw _ _ _
          · trivial
        · unfold Tool.dumpPayload
          simp only
          split
          · exact hpan
          · refine hpr ?_
            rintro (e | vs) <;> trivial
    · exact hraw _ _ _

theorem call_atMost {F : Faults} {o : WOp} {k : Edit.EProg} {n : Nat} (h : k.AtMost n) : (Edit.call F o k).AtMost n := by
  have : ∀ s : Edit.St, Prog.AtMost n (match o.run F s.w with
    | (.ok _, w) => (.set { s with w := w } k : Edit.EProg)
    | (.err e, w) => .set { s with w := w } (.err e)
    | (.panic, w) => .set ⟨w, some .panic⟩ (.err .eof)
    | (.hang, w) => .set ⟨w, some .hang⟩ (.err .eof)) := by
    intro s
    cases e : o.run F s.w with
    | mk r w => cases n <;> cases r <;> first | exact h | trivial
  cases n <;> exact this

/-- `mp4tool edit` -/
theorem edit_once (F : Faults) (d : Bytes) (cfg : Edit.Config) : ExpandsOnce (Edit.handler F d cfg) := by
  intro x
  unfold Edit.handler
  split
  · trivial
  · split
    · exact call_atMost (n := 1) (fun _ => trivial)
    · refine call_atMost ?_
      rintro (e | ⟨box, n⟩)
      · trivial
      · unfold Edit.withPayload
        simp only
        split
        · exact fun _ => trivial
        · refine call_atMost ?_
          rintro (e | vs)
          · trivial
          · exact call_atMost trivial

/-- the program of the README never expands -/
theorem rewrite_once (F : Faults) (d : Bytes) (t : BoxType) (go : String) (f : SV → SV) : ExpandsOnce (Rewrite.handler F d t go f) := by
  intro x
  unfold Rewrite.handler
  split
  · refine call_atMost ?_
    rintro (e | ⟨box, n⟩)
    · trivial
    · unfold Rewrite.withPayload
      simp only
      split
      · exact fun _ => trivial
      · exact call_atMost (call_atMost trivial)
  · exact call_atMost (n := 1) (fun _ => trivial)

/-! ## The bounds are reached -/

theorem nested_length : ∀ n, (nested n).length = 8 * n
  | 0 => rfl
  | n + 1 => by simp only [nested, List.length_cons, nested_length n]; omega

theorem nested_drop : ∀ (n k : Nat), k ≤ n → (nested n).drop (8 * (n - k)) = nested k
  | 0, k, h => by
    have : k = 0 := by omega
    subst this
    rfl
  | n + 1, k, h => by
    by_cases hk : k = n + 1
    · subst hk; simp
    · have : 8 * (n + 1 - k) = 8 * (n - k) + 8 := by omega
      rw [this, nested]
      simp only [List.drop_succ_cons]
      exact nested_drop n k (by omega)

/-- the boxes of `nested n`, from the `k`-th last on -/
def nestedForest (n : Nat) : Nat → Forest
  | 0 => .nil
  | k + 1 => .node ⟨8 * (n - (k + 1)), 8 * (k + 1), 8, tMoov, true, {}⟩ 0 (nestedForest n k) .nil

theorem moov_payload0 {bi : BoxInfo} (ht : bi.type = tMoov) : PayloadN d bi 0 := by
  refine ⟨⟨Cat.bdMoov, tMoov, Cat.bdMoov.fields.zero.setVersion anyVersion⟩, bi.offset + bi.headerSize, ?_⟩
  unfold BoxMap.unmarshalAny BoxMap.new
  rw [ht, show BoxMap.std.getBoxDef tMoov bi.ctx = some Cat.bdMoov from Mp4.Tool.std_moov bi.ctx]
  simp only
  unfold unmarshalBox
  rw [if_neg (by decide), Mp4.Tool.moov_body]

theorem nested_header (n : Nat) : isoHeader (nested (n + 1)) = .box (8 + (nested n).length) 8 tMoov true := by
  have hb : be [0, 0, 0, 0] = 0 := by decide
  simp only [nested, isoHeader, hb, if_true]
  rfl

theorem nestedForest_wf {n : Nat} : ∀ (k : Nat) (isRoot : Bool) (path : List BoxType), k ≤ n →
    (nestedForest n k).WF (nested n) isRoot path {} (8 * (n - k)) (8 * k) := by
  intro k
  induction k with
  | zero =>
    intro isRoot path hk
    simp only [nestedForest, Forest.WF]
    cases isRoot <;> simp [nested_length]
  | succ k ih =>
    intro isRoot path hk
    have hm1 : tMoov ≠ tFtyp := by decide
    have hm2 : tMoov ≠ tKeys := by decide
    have hnext : 8 * (n - (k + 1)) + 8 * (k + 1) = 8 * n := by omega
    refine ⟨⟨rfl, ?_, ?_, ?_, .inr (Nat.le_refl _), ownCtx_plain rfl hm1 hm2⟩, moov_payload0 rfl, ?_, ?_⟩
    · rw [nested_drop n (k + 1) hk, nested_header, nested_length]
      simp only [Header.box.injEq, and_true]
      omega
    · simp only; omega
    · rw [nested_length]; simp only; omega
    · have := ih false (path ++ [tMoov]) (by omega)
      have e1 : 8 * (n - k) = 8 * (n - (k + 1)) + 8 + 0 := by omega
      have e2 : 8 * k = 8 * (k + 1) - 8 - 0 := by omega
      rw [e1, e2] at this
      exact this
    · simp only [Forest.WF, hnext, nested_length]
      cases isRoot <;> simp

theorem nested_boxes (n : Nat) : ∀ (k : Nat) (parent : Option BoxInfo) (path : List BoxType),
    ((nestedForest n k).boxes parent path).map (fun x => x.2.1.length) = List.range' (path.length + 1) k
  | 0, _, _ => rfl
  | k + 1, parent, path => by
    simp only [nestedForest, Forest.boxes, List.append_nil, List.map_cons, List.range'_succ]
    rw [nested_boxes n k]
    simp

theorem nested_leaves (n : Nat) : ∀ (k : Nat) (path : List BoxType), leaves path (nestedForest n k) = []
  | 0, _ => rfl
  | k + 1, path => by simp [nestedForest, leaves, nested_leaves n k]

theorem nested_count (n : Nat) : ∀ k, (nestedForest n k).count = k
  | 0 => rfl
  | k + 1 => by simp only [nestedForest, Forest.count, nested_count n k]; omega

/-- The bounds are reached: on a file of `8 * n` bytes a handler that expands the boxes of known types is called `n` times, with paths of
lengths 1, 2, …, `n`, every call inside the one before; and nothing stops this.  In Go each level takes several stack frames,
and the runtime ends the program when the stack of a goroutine exceeds its limit. -/
theorem nested_reaches_bounds (n : Nat) (hn : 8 * n ≤ 2 ^ 48) :
    let h : Handler Unit Unit Unit := walker (fun _ s => s) (fun h => BoxMap.std.isSupported h.info.type h.info.ctx) (fun h => h.params) (fun _ _ => ())
    let r := traverse (nested n) h (n + 1) () ()
    (nested n).length = 8 * n ∧ (∃ vs, r.1 = .ok vs) ∧ (enters r.2.log).map (fun x => x.2.1.length) = List.range' 1 n := by
  intro h r
  have hv := visits_every_box_in_order (d := nested n) (by rw [nested_length]; exact hn) (nestedForest n n)
    (by
      have := nestedForest_wf (n := n) n true [] (Nat.le_refl _)
      rw [Nat.sub_self] at this
      exact wf_root_total 0 this)
    (by rw [nested_leaves]; simp) (fun _ (s : Unit) => s) (fun h => h.params) (fun _ _ => ()) () () 0 (n + 1) (by rw [nested_count]; omega)
  exact ⟨nested_length n, hv.1, by rw [hv.2, nested_boxes n n]; rfl⟩

/-- A handler that expands each box twice is called more often: `calls_bounded` is about those that expand once. -/
def expandTwice : Handler Unit Unit Unit := fun h =>
  if BoxMap.std.isSupported h.info.type h.info.ctx then .expand () fun _ => .expand () returnErr else .ret ()

example : (enters (traverse (nested 3) expandTwice 9 () ()).2.log).length = 7 ∧ (nested 3).length / 8 = 3 := by decide +kernel

/-- the conditions can be met -/
example : (enters (traverse smallFile expandSupported 9 () ()).2.log).length = 3 ∧ smallFile.length / 8 = 3 ∧
    (∀ x ∈ enters (traverse smallFile expandSupported 9 () ()).2.log, x.2.2.headerSize ≤ x.2.2.size ∧ x.2.2.offset + x.2.2.size < 2 ^ 64) := by
  decide +kernel

end Mp4.Props
