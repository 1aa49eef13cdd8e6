import Verif.Lemmas.Main
import Verif.Props.ToolJson
import Verif.Props.ToolExtract
import Verif.Props.EditBoxes

/-!
# C86: what a run of `mp4tool` does
-/

namespace Mp4.Props

open Mp4 Mp4.Cmd Mp4.Tool Mp4.Spec Mp4.Line Mp4.Edit

/-- The operands begin behind the options, or behind `--`. -/
inductive Operands : List Bytes → List Bytes → Prop where
  | plain {s : Bytes} (h : Operand s) (l : List Bytes) : Operands (s :: l) (s :: l)
  | dashes (l : List Bytes) : Operands l ([0x2d, 0x2d] :: l)
  | none : Operands [] []

/-- **C86** (options) — Options may be written with one dash or two, with their values behind a sign of equality or as the next argument; what is behind the first
argument that is not an option are operands, whatever it looks like. -/
theorem options_read {decl : List (Bytes × OptKind)} (hd : Declared decl) {vals : List (Bytes × OptValue)} {opts : List Bytes} (h : Spec.Line decl vals opts) {ops rest : List Bytes}
    (hr : Operands ops rest) : parse decl (opts ++ rest) = .ok vals ops := by
  refine parse_line hd h rest ?_
  cases hr with
  | plain hs l => exact parse_operand decl hs l
  | dashes => exact parse_stop decl _
  | none => rfl

/-! ## The commands -/

theorem run_dump (w : World) (args : List Bytes) : run w (word "dump" :: args) = dumpMain w args := by
  rw [run, if_neg (by decide +kernel), if_pos rfl]

theorem run_pssh (w : World) (args : List Bytes) : run w (word "psshdump" :: args) = psshMain w args := by
  rw [run, if_neg (by decide +kernel), if_neg (by decide +kernel), if_pos rfl]

theorem run_probe (w : World) (args : List Bytes) : run w (word "probe" :: args) = probeMain w args := by
  rw [run, if_neg (by decide +kernel), if_neg (by decide +kernel), if_neg (by decide +kernel), if_pos rfl]

theorem run_extract (w : World) (args : List Bytes) : run w (word "extract" :: args) = extractMain w args := by
  rw [run, if_neg (by decide +kernel), if_neg (by decide +kernel), if_neg (by decide +kernel), if_neg (by decide +kernel), if_pos rfl]

theorem run_alpha (w : World) (args : List Bytes) : run w (word "alpha" :: args) = alpha w args := by
  rw [run, if_neg (by decide +kernel), if_neg (by decide +kernel), if_neg (by decide +kernel), if_neg (by decide +kernel), if_neg (by decide +kernel), if_pos rfl]

theorem run_edit (w : World) (args : List Bytes) : run w (word "alpha" :: word "edit" :: args) = editMain w args := by
  rw [run_alpha]
  rw [alpha, if_pos rfl]

theorem run_divide (w : World) (args : List Bytes) : run w (word "alpha" :: word "divide" :: args) = divideMain w args := by
  rw [run_alpha]
  rw [alpha, if_neg (by decide +kernel), if_pos rfl]

/-- the switch has been set -/
def On (vals : List (Bytes × OptValue)) (name : String) : Prop := said vals name = some (.switch true)

instance (vals : List (Bytes × OptValue)) (name : String) : Decidable (On vals name) := by unfold On; exact inferInstance

theorem switch_said (vals : List (Bytes × OptValue)) (name : String) : switchOf vals name = decide (On vals name) := by
  rw [Bool.eq_iff_iff, decide_eq_true_eq]
  unfold switchOf On
  rw [value_said]
  cases said vals name with
  | none => simp
  | some v =>
    cases v with
    | switch b => cases b <;> simp
    | text s => simp
    | number n => simp

theorem text_said {vals : List (Bytes × OptValue)} {name : String} {dflt s : Bytes} (h : (said vals name).getD (.text dflt) = .text s) : textOf vals name dflt = s := by
  unfold textOf
  rw [value_said, h]

/-- **C86** (dump) — `mp4tool dump [options] FILE` prints the lines that C61 describes, for the options given: in full are shown the types that `-full` names, with `-mdat` the type
`mdat`, with `-free` the types `free` and `skip`.  The exit status is 0 if this succeeds.  Nothing behind `FILE` counts. -/
theorem dump_command (w : World) {vals : List (Bytes × OptValue)} {opts : List Bytes} (h : Spec.Line dumpFlags vals opts) {names : List Bytes} (hn : ∀ s ∈ names, NoComma s)
    (hfull : (said vals "full").getD (.text []) = .text (joinComma names)) {path : Bytes} {more rest : List Bytes} (hr : Operands (path :: more) rest) {d : Bytes}
    (hf : w.file path = some d) : ∃ cfg : DumpCfg,
      run w (word "dump" :: opts ++ rest) = done w (dump d cfg w.fuel).1 (printed (dump d cfg w.fuel).2) .none ∧
      (∀ t : BoxType, t.toStr ∈ cfg.full ↔ t.toStr ∈ names ∨ (On vals "mdat" ∧ t.toStr = word "mdat") ∨ (On vals "free" ∧ (t.toStr = word "free" ∨ t.toStr = word "skip"))) ∧
      cfg.showAll = decide (On vals "a") ∧ cfg.offset = decide (On vals "offset") ∧ cfg.hex = decide (On vals "hex") ∧ cfg.width = w.width ∧ cfg.beyond = w.beyond := by
  refine ⟨dumpCfg w vals, ?_, ?_, switch_said _ _, switch_said _ _, switch_said _ _, rfl, rfl⟩
  · rw [List.cons_append, run_dump]
    unfold dumpMain
    rw [options_read dump_declared h hr]
    simp only [hf]
  · intro t
    have hs : t.toStr ∈ splitComma (joinComma names) ↔ t.toStr ∈ names := by
      have := drop_option hn t
      unfold exists_ at this
      rw [Bool.eq_iff_iff, List.any_eq_true] at this
      simp only [decide_eq_true_eq] at this
      rw [← this]
      exact ⟨fun h => ⟨_, h, rfl⟩, fun ⟨x, h, e⟩ => e ▸ h⟩
    unfold dumpCfg
    simp only [List.mem_append, text_said hfull, hs, switch_said, decide_eq_true_eq, or_assoc]
    refine or_congr Iff.rfl (or_congr ?_ ?_)
    · by_cases h : On vals "mdat" <;> simp [h]
    · by_cases h : On vals "free" <;> simp [h]

/-- **C86** (extract) — `mp4tool extract TYPE FILE`, for the four bytes of a type. -/
theorem extract_command (w : World) (t : BoxType) {path : Bytes} {more rest : List Bytes} (hr : Operands (t.bytes :: path :: more) rest) {d : Bytes}
    (hf : w.file path = some d) : run w (word "extract" :: rest) = done w (extract d t w.fuel).1 (textBytes (extract d t w.fuel).2) .none := by
  rw [run_extract]
  unfold extractMain
  rw [← List.nil_append rest, options_read extract_declared .nil hr]
  simp only [BoxType.bytes, hf]

/-- On a well-formed file whose boxes can be decoded, it writes the bytes of the boxes of the type, in file order, nothing else, and exits with status 0. -/
theorem extract_command_writes (w : World) (t : BoxType) {path : Bytes} {more rest : List Bytes} (hr : Operands (t.bytes :: path :: more) rest) {d : Bytes}
    (hf : w.file path = some d) (hd : d.length ≤ 2 ^ 48) (F : Forest) (hF : F.WF d true [] {} 0 0) (hu : Understood d F) (hfuel : F.count < w.fuel) :
    run w (word "extract" :: rest) = ⟨.exit 0, textBytes (allOfType d t F), .none⟩ := by
  rw [extract_command w t hr hf, extract_tool_writes hd F hF hu t w.fuel hfuel]
  rfl

/-- **C86** (probe) — If `mp4tool probe FILE` exits with status 0, then what it has printed is the JSON of the report about the file (C85). -/
theorem probe_command (w : World) (hs : Numeric w.secs) {vals : List (Bytes × OptValue)} {opts : List Bytes} (h : Spec.Line probeFlags vals opts)
    (hj : said vals "format" = none ∨ said vals "format" = some (.text (word "json"))) {path : Bytes} {more rest : List Bytes} (hr : Operands (path :: more) rest) {d : Bytes}
    (hf : w.file path = some d) (h0 : (run w (word "probe" :: opts ++ rest)).ended = .exit 0) :
    ∃ r p v, probeJson BoxMap.std d w.fuel 0 = (.ok r, p) ∧ Json.parse (Str.runes (run w (word "probe" :: opts ++ rest)).out) = some v ∧ ReportSays w.secs v r := by
  have hx : textOf vals "format" (word "json") = word "json" := by
    refine text_said ?_
    rcases hj with e | e <;> rw [e] <;> rfl
  have e : run w (word "probe" :: opts ++ rest) = match (probeText BoxMap.std d w.fuel w.short w.secs 0).1 with
      | .ok t => done w (.ok ()) t .none
      | o => done w (unitOf o) [] .none := by
    rw [List.cons_append, run_probe]
    unfold probeMain
    rw [options_read probe_declared h hr]
    simp only [hf, hx]
    unfold probeOut
    rw [if_pos rfl]
    cases (probeText BoxMap.std d w.fuel w.short w.secs 0).1 <;> rfl
  rw [e] at h0 ⊢
  cases ht : probeText BoxMap.std d w.fuel w.short w.secs 0 with
  | mk o p =>
    rw [ht] at h0
    cases o with
    | ok t =>
      obtain ⟨r, h1, -, v, h2, h3⟩ := report_json d w.fuel w.short hs ht
      exact ⟨r, p, v, h1, h2, h3⟩
    | err e => cases h0
    | panic => cases h0
    | hang => cases h0

/-- what has been said about the decode time -/
def timeSaid (vals : List (Bytes × OptValue)) : Option Nat :=
  match said vals "base_media_decode_time" with
  | some (.number n) => some n
  | _ => none

theorem time_said (vals : List (Bytes × OptValue)) : numberOf vals "base_media_decode_time" = timeSaid vals := by
  unfold numberOf timeSaid
  rw [value_said]
  cases said vals "base_media_decode_time" with
  | none => rfl
  | some v => cases v <;> rfl

theorem edit_command (w : World) {vals : List (Bytes × OptValue)} {opts : List Bytes} (h : Spec.Line editFlags vals opts) {names : List Bytes}
    (hdrop : (said vals "drop").getD (.text []) = .text (joinComma names)) {input output : Bytes} {more rest : List Bytes} (hr : Operands (input :: output :: more) rest) {d : Bytes}
    (hf : w.file input = some d) (hc : w.creates output = true) :
    run w (word "alpha" :: word "edit" :: opts ++ rest) =
      let r := editFile w.faults (if w.same input output then [] else d) (Config.ofOptions (timeSaid vals) (joinComma names)) w.fuel
      done w r.1 [] (.wrote output r.2) := by
  rw [List.cons_append, List.cons_append, run_edit]
  unfold editMain
  rw [options_read edit_declared h hr]
  simp only [hf, hc, if_true, time_said, text_said hdrop]

/-- **C86** (edit) — `mp4tool alpha edit [options] IN OUT`, on a file that is the bytes of a row of boxes (C76), with another file as output: writes the bytes of the edited row to the output,
nothing to standard output, and exits with status 0. -/
theorem edit_command_boxes (w : World) (hw : w.faults = noFaults) {vals : List (Bytes × OptValue)} {opts : List Bytes} (h : Spec.Line editFlags vals opts) {names : List Bytes}
    (hdrop : (said vals "drop").getD (.text []) = .text (joinComma names)) {input output : Bytes} {more rest : List Bytes} (hr : Operands (input :: output :: more) rest)
    (B : Boxes) (hf : w.file input = some (B.ser true {})) (hc : w.creates output = true) (hsame : w.same input output = false)
    (hok : B.Ok true true {}) (hlen : (B.ser true {}).length ≤ 2 ^ 48) (ht : ∀ t, timeSaid vals = some t → t < 2 ^ 64 - 1) (hn : ∀ s ∈ names, NoComma s)
    (hraw : B.Opaque (ToDrop names) true {}) (hft : ¬ ToDrop names tFtyp) (hk : ¬ ToDrop names tKeys) (hfuel : (B.forest true {} 0).count < w.fuel) :
    run w (word "alpha" :: word "edit" :: opts ++ rest) = ⟨.exit 0, [], .wrote output ((B.edit (ToDrop names) (timeSaid vals)).ser true {})⟩ := by
  rw [edit_command w h hdrop hr hf hc, hsame, hw]
  simp only [Bool.false_eq_true, if_false]
  rw [edit_boxes B hok hlen _ ht names hn hraw hft hk w.fuel hfuel]
  rfl

theorem edit_empty (F : Faults) (cfg : Config) (fuel : Nat) (h : 0 < fuel) : editFile F [] cfg fuel = (.ok (), []) := by
  obtain ⟨n, rfl⟩ : ∃ n, fuel = n + 1 := ⟨fuel - 1, by omega⟩
  rfl

/-- Where the expectation fails that `edit` writes the edited file: with the input as output, the contents of the file are lost, whatever they were, and the exit status is 0. -/
theorem edit_in_place (w : World) (hfuel : 0 < w.fuel) {vals : List (Bytes × OptValue)} {opts : List Bytes} (h : Spec.Line editFlags vals opts) {names : List Bytes}
    (hdrop : (said vals "drop").getD (.text []) = .text (joinComma names)) {input output : Bytes} {more rest : List Bytes} (hr : Operands (input :: output :: more) rest) {d : Bytes}
    (hf : w.file input = some d) (hc : w.creates output = true) (hsame : w.same input output = true) :
    run w (word "alpha" :: word "edit" :: opts ++ rest) = ⟨.exit 0, [], .wrote output []⟩ := by
  rw [edit_command w h hdrop hr hf hc, hsame]
  simp only [if_true]
  rw [edit_empty _ _ _ hfuel]
  rfl

/-- The largest decode time cannot be set: it is taken for no decode time. -/
theorem edit_no_value (w : World) {vals vals' : List (Bytes × OptValue)} {opts opts' : List Bytes} (h : Spec.Line editFlags vals opts) (h' : Spec.Line editFlags vals' opts') {names : List Bytes}
    (hdrop : (said vals "drop").getD (.text []) = .text (joinComma names)) (hdrop' : (said vals' "drop").getD (.text []) = .text (joinComma names))
    (ht : timeSaid vals = some (2 ^ 64 - 1)) (ht' : timeSaid vals' = none)
    {input output : Bytes} {more rest : List Bytes} (hr : Operands (input :: output :: more) rest) {d : Bytes} (hf : w.file input = some d) (hc : w.creates output = true) :
    run w (word "alpha" :: word "edit" :: opts ++ rest) = run w (word "alpha" :: word "edit" :: opts' ++ rest) := by
  rw [edit_command w h hdrop hr hf hc, edit_command w h' hdrop' hr hf hc, ht, ht']
  rfl

/-- **C86** (psshdump) — `mp4tool psshdump FILE` prints the entries of C59.  It has no options: an argument that begins with a dash is the name of the file. -/
theorem pssh_command (w : World) (path : Bytes) (more : List Bytes) {d : Bytes} (hf : w.file path = some d) {l : List PsshEntry} {p : Nat}
    (h : psshdump BoxMap.std d w.fuel 0 = (.ok l, p)) : run w (word "psshdump" :: path :: more) = ⟨.exit 0, l.flatMap psshText, .none⟩ := by
  rw [run_pssh, psshMain]
  simp only [hf, h]
  rfl

/-- **C86** (divide) — `mp4tool alpha divide FILE DIR` writes the files of C63 and C82. -/
theorem divide_command (w : World) (input dir : Bytes) (more : List Bytes) {d : Bytes} (hf : w.file input = some d) (hc : w.creates dir = true) :
    run w (word "alpha" :: word "divide" :: input :: dir :: more) = done w (divide d w.fuel).1 [] (.divided dir (divide d w.fuel).2.1 (divide d w.fuel).2.2) := by
  rw [run_divide, divideMain]
  simp only [hf, hc, if_true]

/-! ## The exit status -/

/-- what a run that exits with status 0 has done -/
inductive Did (w : World) (args : List Bytes) : Cmd.Run → Prop where
  | help : Did w args ⟨.exit 0, [], .none⟩
  | dump {path d : Bytes} (hp : path ∈ args) (hf : w.file path = some d) (cfg : DumpCfg) (h : (Tool.dump d cfg w.fuel).1 = .ok ()) :
      Did w args ⟨.exit 0, printed (Tool.dump d cfg w.fuel).2, .none⟩
  | extract {path d : Bytes} (hp : path ∈ args) (hf : w.file path = some d) (t : BoxType) (ht : t.bytes ∈ args) (h : (Tool.extract d t w.fuel).1 = .ok ()) :
      Did w args ⟨.exit 0, textBytes (Tool.extract d t w.fuel).2, .none⟩
  | pssh {path d : Bytes} (hp : path ∈ args) (hf : w.file path = some d) {l : List PsshEntry} {p : Nat} (h : psshdump BoxMap.std d w.fuel 0 = (.ok l, p)) :
      Did w args ⟨.exit 0, l.flatMap psshText, .none⟩
  | json {path d : Bytes} (hp : path ∈ args) (hf : w.file path = some d) {t : Str.Text} {p : Nat} (h : probeText BoxMap.std d w.fuel w.short w.secs 0 = (.ok t, p)) :
      Did w args ⟨.exit 0, t, .none⟩
  | yaml {path d : Bytes} (hp : path ∈ args) (hf : w.file path = some d) {r : Report} {p : Nat} (h : buildReport BoxMap.std d w.fuel 0 = (.ok r, p)) :
      Did w args ⟨.exit 0, w.yaml r, .none⟩
  | edit {input output d : Bytes} (hp : input ∈ args) (hf : w.file input = some d) (ho : output ∈ args) (cfg : Config) {c : Bytes}
      (h : editFile w.faults (if w.same input output then [] else d) cfg w.fuel = (.ok (), c)) : Did w args ⟨.exit 0, [], .wrote output c⟩
  | divide {input dir d : Bytes} (hp : input ∈ args) (hf : w.file input = some d) (ho : dir ∈ args) (h : (Tool.divide d w.fuel).1 = .ok ()) :
      Did w args ⟨.exit 0, [], .divided dir (Tool.divide d w.fuel).2.1 (Tool.divide d w.fuel).2.2⟩

theorem cons_ok {x : Bytes × OptValue} {p : Parsed} {vals : List (Bytes × OptValue)} {rest : List Bytes} (h : p.cons x = .ok vals rest) : ∃ l, p = .ok l rest := by
  cases p with
  | ok l r => cases h; exact ⟨l, rfl⟩
  | help => cases h
  | bad => cases h

/-- operands are arguments -/
theorem parse_suffix (decl : List (Bytes × OptKind)) : ∀ (n : Nat) (args : List Bytes), args.length ≤ n → ∀ vals rest, parse decl args = .ok vals rest → rest <:+ args := by
  intro n
  induction n with
  | zero =>
    intro args hl vals rest h
    cases args with
    | nil => cases h; exact List.suffix_refl _
    | cons a l => simp at hl
  | succ n ih =>
    intro args hl vals rest h
    cases args with
    | nil => cases h; exact List.suffix_refl _
    | cons s args =>
      simp only [List.length_cons] at hl
      rw [parse.eq_def] at h
      simp only at h
      split at h
      · cases h; exact List.suffix_refl _
      · cases h; exact List.suffix_cons _ _
      · cases h
      · split at h
        · split at h <;> cases h
        · obtain ⟨l, e⟩ := cons_ok h
          exact (ih args (by omega) _ _ e).trans (List.suffix_cons _ _)
        · unfold withValue at h
          split at h
          · cases h
          · obtain ⟨l, e⟩ := cons_ok h
            exact (ih args (by omega) _ _ e).trans (List.suffix_cons _ _)
        · split at h
          · cases h
          · unfold withValue at h
            simp only [List.length_cons] at hl
            split at h
            · cases h
            · obtain ⟨l, e⟩ := cons_ok h
              exact (ih _ (by omega) _ _ e).trans ((List.suffix_cons _ _).trans (List.suffix_cons _ _))

theorem done_zero {w : World} {o : Out Unit} {out : Str.Text} {e : Effect} (h : (done w o out e).ended = .exit 0) : o = .ok () ∧ done w o out e = ⟨.exit 0, out, e⟩ := by
  cases o with
  | ok u => exact ⟨rfl, rfl⟩
  | err _ => cases h
  | panic => cases h
  | hang => cases h

theorem fails_zero {w : World} {e : Err} {out : Str.Text} {f : Effect} : (done w (.err e) out f).ended ≠ .exit 0 := nofun

theorem usage_zero {n : Nat} (h : (usage (n + 1)).ended = .exit 0) : False := by cases h

/-- **C86** (exit status) — If a run of `mp4tool` exits with status 0, then either nothing but help has been asked for, or the command has done all of its work on the contents of a file named by one of
its arguments; then standard output has what the command prints and no message, and no file has been created other than that of `alpha edit` and those of `alpha divide`. -/
theorem status_zero (w : World) (args : List Bytes) (h : (run w args).ended = .exit 0) : Did w args (run w args) := by
  have mem : ∀ {decl : List (Bytes × OptKind)} {c : Bytes} {l : List Bytes} {vals : List (Bytes × OptValue)} {rest : List Bytes} {x : Bytes}, parse decl l = .ok vals rest → x ∈ rest → x ∈ c :: l :=
    fun hp hx => List.mem_cons_of_mem _ ((parse_suffix _ _ _ (Nat.le_refl _) _ _ hp).mem hx)
  cases args with
  | nil => cases h
  | cons c args =>
    rw [run.eq_def] at h ⊢
    simp only at h ⊢
    by_cases h1 : c = word "help"
    · rw [if_pos h1]; exact .help
    rw [if_neg h1] at h ⊢
    by_cases h2 : c = word "dump"
    · rw [if_pos h2] at h ⊢
      unfold dumpMain at h ⊢
      cases hp : parse dumpFlags args with
      | help => exact .help
      | bad => rw [hp] at h; cases h
      | ok l rest =>
        rw [hp] at h
        cases rest with
        | nil => cases h
        | cons path rest =>
          simp only at h ⊢
          cases hf : w.file path with
          | none => rw [hf] at h; cases h
          | some d =>
            rw [hf] at h
            simp only at h ⊢
            obtain ⟨e1, e2⟩ := done_zero h
            rw [e2]
            exact .dump (mem hp List.mem_cons_self) hf _ e1
    rw [if_neg h2] at h ⊢
    by_cases h3 : c = word "psshdump"
    · rw [if_pos h3] at h ⊢
      cases args with
      | nil => cases h
      | cons path args =>
        unfold psshMain at h ⊢
        simp only at h ⊢
        cases hf : w.file path with
        | none => rw [hf] at h; cases h
        | some d =>
          rw [hf] at h
          simp only at h ⊢
          cases hq : psshdump BoxMap.std d w.fuel 0 with
          | mk o p =>
            rw [hq] at h
            cases o with
            | ok l => exact .pssh (by simp) hf hq
            | err e => cases h
            | panic => cases h
            | hang => cases h
    rw [if_neg h3] at h ⊢
    by_cases h4 : c = word "probe"
    · rw [if_pos h4] at h ⊢
      unfold probeMain at h ⊢
      cases hp : parse probeFlags args with
      | help => exact .help
      | bad => rw [hp] at h; cases h
      | ok l rest =>
        rw [hp] at h
        cases rest with
        | nil => cases h
        | cons path rest =>
          simp only at h ⊢
          cases hf : w.file path with
          | none => rw [hf] at h; cases h
          | some d =>
            rw [hf] at h
            simp only at h ⊢
            unfold probeOut at h ⊢
            by_cases hj : textOf l "format" (word "json") = word "json"
            · rw [if_pos hj] at h ⊢
              cases hq : probeText BoxMap.std d w.fuel w.short w.secs 0 with
              | mk o p =>
                rw [hq] at h
                cases o with
                | ok t => exact .json (mem hp List.mem_cons_self) hf hq
                | err e => cases h
                | panic => cases h
                | hang => cases h
            · rw [if_neg hj] at h ⊢
              cases hq : buildReport BoxMap.std d w.fuel 0 with
              | mk o p =>
                rw [hq] at h
                cases o with
                | ok t => exact .yaml (mem hp List.mem_cons_self) hf hq
                | err e => cases h
                | panic => cases h
                | hang => cases h
    rw [if_neg h4] at h ⊢
    by_cases h5 : c = word "extract"
    · rw [if_pos h5] at h ⊢
      unfold extractMain at h ⊢
      cases hp : parse [] args with
      | help => exact .help
      | bad => rw [hp] at h; cases h
      | ok l rest =>
        rw [hp] at h
        split at h
        · cases ‹_ = Parsed.help›
        · cases ‹_ = Parsed.bad›
        · rename_i a b c' e path more heq
          cases heq
          cases hf : w.file path with
          | none => rw [hf] at h; cases h
          | some d =>
            rw [hf] at h
            simp only at h
            obtain ⟨e1, e2⟩ := done_zero h
            simp only [hf]
            rw [e2]
            exact .extract (mem hp (by simp)) hf _ (mem hp (by simp [BoxType.bytes])) e1
        · cases h
    rw [if_neg h5] at h ⊢
    by_cases h6 : c = word "alpha"
    · rw [if_pos h6] at h ⊢
      cases args with
      | nil => cases h
      | cons c2 args =>
        rw [alpha] at h ⊢
        by_cases h7 : c2 = word "edit"
        · rw [if_pos h7] at h ⊢
          unfold editMain at h ⊢
          cases hp : parse editFlags args with
          | help => exact .help
          | bad => rw [hp] at h; cases h
          | ok l rest =>
            rw [hp] at h
            match rest, h, hp with
            | [], h, _ => cases h
            | [_], h, _ => cases h
            | input :: output :: rest, h, hp =>
              simp only at h ⊢
              cases hf : w.file input with
              | none => rw [hf] at h; cases h
              | some d =>
                rw [hf] at h
                simp only at h ⊢
                by_cases hc : w.creates output = true
                · rw [if_pos hc] at h ⊢
                  obtain ⟨e1, e2⟩ := done_zero h
                  rw [e2]
                  exact .edit (List.mem_cons_of_mem _ (mem hp (by simp))) hf (List.mem_cons_of_mem _ (mem hp (by simp))) _ (Prod.ext e1 rfl)
                · rw [if_neg hc] at h; cases h
        · rw [if_neg h7] at h ⊢
          by_cases h8 : c2 = word "divide"
          · rw [if_pos h8] at h ⊢
            unfold divideMain at h ⊢
            match args, h with
            | [], h => cases h
            | [_], h => cases h
            | input :: dir :: rest, h =>
              simp only at h ⊢
              cases hf : w.file input with
              | none => rw [hf] at h; cases h
              | some d =>
                rw [hf] at h
                simp only at h ⊢
                by_cases hc : w.creates dir = true
                · rw [if_pos hc] at h ⊢
                  obtain ⟨e1, e2⟩ := done_zero h
                  rw [e2]
                  exact .divide (by simp) hf (by simp) e1
                · rw [if_neg hc] at h; cases h
          · rw [if_neg h8] at h; cases h
    · rw [if_neg h6] at h; cases h

/-! ## Mistakes and help -/

/-- the commands that have options, and their options -/
def withOptions : List (List Bytes × List (Bytes × OptKind)) :=
  [([word "dump"], dumpFlags), ([word "probe"], probeFlags), ([word "extract"], []), ([word "alpha", word "edit"], editFlags)]

theorem run_options (w : World) {cmd : List Bytes} {decl : List (Bytes × OptKind)} (hc : (cmd, decl) ∈ withOptions) {args : List Bytes} :
    (parse decl args = .help → run w (cmd ++ args) = usage 0) ∧ (parse decl args = .bad → run w (cmd ++ args) = usage 2) ∧ Declared decl := by
  simp only [withOptions, List.mem_cons, List.not_mem_nil, or_false, Prod.mk.injEq] at hc
  rcases hc with ⟨rfl, rfl⟩ | ⟨rfl, rfl⟩ | ⟨rfl, rfl⟩ | ⟨rfl, rfl⟩
  · refine ⟨fun h => ?_, fun h => ?_, dump_declared⟩ <;>
    · rw [List.cons_append, List.nil_append, run_dump]
      unfold dumpMain
      rw [h]
  · refine ⟨fun h => ?_, fun h => ?_, probe_declared⟩ <;>
    · rw [List.cons_append, List.nil_append, run_probe]
      unfold probeMain
      rw [h]
  · refine ⟨fun h => ?_, fun h => ?_, extract_declared⟩ <;>
    · rw [List.cons_append, List.nil_append, run_extract]
      unfold extractMain
      rw [h]
  · refine ⟨fun h => ?_, fun h => ?_, edit_declared⟩ <;>
    · rw [List.cons_append, List.cons_append, List.nil_append, run_edit]
      unfold editMain
      rw [h]

theorem parse_stops {decl : List (Bytes × OptKind)} (hd : Declared decl) {vals : List (Bytes × OptValue)} {opts : List Bytes} (h : Spec.Line decl vals opts) (rest : List Bytes) {p : Parsed}
    (hp : p = .help ∨ p = .bad) (hr : parse decl rest = p) : parse decl (opts ++ rest) = p := by
  induction h with
  | nil => exact hr
  | cons hm hw _ ih =>
    rw [List.append_assoc, parse_one hd hm hw, ih]
    rcases hp with rfl | rfl <;> rfl

theorem parse_undeclared {decl : List (Bytes × OptKind)} {dashes name : Bytes} (hs : Dashes dashes) (hn : Line.Named name) (hu : ∀ x ∈ decl, x.1 ≠ name) (rest : List Bytes) :
    parse decl ((dashes ++ name) :: rest) = if name = word "help" ∨ name = word "h" then .help else .bad := by
  have hk : Cmd.kindOf decl name = none := by
    unfold Cmd.kindOf
    rw [List.find?_eq_none.2 fun x hx => by simpa using hu x hx]
    rfl
  rw [parse.eq_def]
  simp only [seen_dashes hs hn.1 hn.2.1, name_none hn, hk]

/-- **C86** (help) — Behind any options, `-h` and `-help` make the command do nothing and exit with status 0. -/
theorem help_command (w : World) {cmd : List Bytes} {decl : List (Bytes × OptKind)} (hc : (cmd, decl) ∈ withOptions) {vals : List (Bytes × OptValue)} {opts : List Bytes}
    (h : Spec.Line decl vals opts) {dashes name : Bytes} (hs : Dashes dashes) (hn : name = word "help" ∨ name = word "h") (rest : List Bytes) :
    run w (cmd ++ opts ++ (dashes ++ name) :: rest) = ⟨.exit 0, [], .none⟩ := by
  obtain ⟨h1, -, hd⟩ := run_options w hc (args := opts ++ (dashes ++ name) :: rest)
  rw [List.append_assoc]
  refine h1 (parse_stops hd h _ (.inl rfl) ?_)
  have hu : ∀ x ∈ decl, x.1 ≠ name := by
    have : ∀ c ∈ withOptions, ∀ x ∈ c.2, x.1 ≠ word "help" ∧ x.1 ≠ word "h" := by decide +kernel
    intro x hx
    have := this _ hc x hx
    rcases hn with rfl | rfl
    · exact this.1
    · exact this.2
  have hN : Line.Named name := by
    rcases hn with rfl | rfl <;> (unfold Line.Named; decide +kernel)
  rw [parse_undeclared hs hN hu, if_pos hn]

/-- **C86** (mistakes) — An option that the command does not have makes it do nothing and exit with status 2, whatever options are in front of it. -/
theorem unknown_option (w : World) {cmd : List Bytes} {decl : List (Bytes × OptKind)} (hc : (cmd, decl) ∈ withOptions) {vals : List (Bytes × OptValue)} {opts : List Bytes}
    (h : Spec.Line decl vals opts) {dashes name : Bytes} (hs : Dashes dashes) (hN : Line.Named name) (hu : ∀ x ∈ decl, x.1 ≠ name) (hh : name ≠ word "help") (hh' : name ≠ word "h")
    (rest : List Bytes) : run w (cmd ++ opts ++ (dashes ++ name) :: rest) = ⟨.exit 2, [], .none⟩ := by
  obtain ⟨-, h1, hd⟩ := run_options w hc (args := opts ++ (dashes ++ name) :: rest)
  rw [List.append_assoc]
  refine h1 (parse_stops hd h _ (.inr rfl) ?_)
  rw [parse_undeclared hs hN hu, if_neg (by exact not_or.2 ⟨hh, hh'⟩)]

/-- An argument that is UTF-8 does not begin with the byte 0xa9: `mp4tool extract` cannot be asked for a type like `©nam` on a terminal that encodes characters as UTF-8. -/
theorem extract_no_copyright (t : BoxType) (h : t.b0 = 0xa9) : (Str.runes (textBytes t.bytes)).flatMap Str.encodeRune ≠ textBytes t.bytes := by
  intro e
  have hb : textBytes t.bytes = 0xa9 :: [t.b1.toNat, t.b2.toNat, t.b3.toNat] := by
    unfold textBytes BoxType.bytes
    rw [h]
    rfl
  rw [hb] at e
  have hr : Str.runes (0xa9 :: [t.b1.toNat, t.b2.toNat, t.b3.toNat]) = Str.runeError :: Str.runesN 3 [t.b1.toNat, t.b2.toNat, t.b3.toNat] := rfl
  rw [hr, List.flatMap_cons] at e
  have h0 : ∀ l : Str.Text, (Str.encodeRune Str.runeError ++ l).head? = some 0xef := fun l => rfl
  have := congrArg List.head? e
  rw [h0] at this
  simp at this

/-! ## Cases -/

/-- Two files, `a` and `b`; anything can be created. -/
def twoFiles : World where
  file p := if p = word "a" then some reportFile else if p = word "b" then some (editRow.ser true {}) else none
  creates _ := true
  same p q := p = q
  faults := noFaults
  width := 80
  beyond _ := true
  short := true
  secs := twoSeconds
  yaml _ := []
  say _ := []
  fuel := 600

/-- the options of the following lines -/
theorem line_drop : Spec.Line editFlags [(word "drop", .text (word "free,xxxx")), (word "base_media_decode_time", .number 258)]
    [word "-drop", word "free,xxxx", word "--base_media_decode_time=0x102"] := by
  have h := Spec.Line.cons (decl := editFlags) (name := word "base_media_decode_time") (by decide +kernel) (.sign (.inr rfl) (.hexadecimal 258 (by decide))) .nil
  exact .cons (name := word "drop") (by decide +kernel) (.apart (.inl rfl) (by decide) (.text _)) h

theorem line_dump : Spec.Line dumpFlags [(word "full", .text (word "mdat")), (word "offset", .switch true), (word "hex", .switch false), (word "free", .switch true)]
    [word "--full=mdat", word "-offset", word "-hex=false", word "--free"] := by
  have h1 := Spec.Line.cons (decl := dumpFlags) (name := word "free") (by decide +kernel) (.switch (.inr rfl)) .nil
  have h2 := Spec.Line.cons (decl := dumpFlags) (name := word "hex") (by decide +kernel) (.sign (.inl rfl) .no) h1
  have h3 := Spec.Line.cons (decl := dumpFlags) (name := word "offset") (by decide +kernel) (.switch (.inl rfl)) h2
  exact .cons (name := word "full") (by decide +kernel) (.sign (.inr rfl) (.text _)) h3

example := options_read dump_declared line_dump (ops := [word "a", word "-a"]) (.plain (.inr (by decide +kernel)) _)
example : ∃ cfg : DumpCfg, run twoFiles ([word "dump", word "--full=mdat", word "-offset", word "-hex=false", word "--free", word "a", word "-a"]) =
    done twoFiles (dump reportFile cfg 600).1 (printed (dump reportFile cfg 600).2) .none ∧ cfg.showAll = false ∧ cfg.offset = true := by
  obtain ⟨cfg, h1, -, h2, h3, -⟩ := dump_command twoFiles line_dump (names := [word "mdat"]) (by unfold NoComma; decide +kernel) (by decide +kernel) (path := word "a") (more := [word "-a"])
    (.plain (.inr (by decide +kernel)) _) (d := reportFile) rfl
  exact ⟨cfg, h1, by rw [h2]; decide +kernel, by rw [h3]; decide +kernel⟩

example : run twoFiles [word "alpha", word "edit", word "-drop", word "free,xxxx", word "--base_media_decode_time=0x102", word "b", word "c"] =
    ⟨.exit 0, [], .wrote (word "c") ((editRow.edit (ToDrop [word "free", word "xxxx"]) (some 258)).ser true {})⟩ :=
  edit_command_boxes twoFiles rfl line_drop (names := [word "free", word "xxxx"]) (by decide +kernel) (input := word "b") (output := word "c") (more := [])
    (.plain (.inr (by decide +kernel)) _) editRow rfl rfl (by decide +kernel) editRow_ok.1 (by decide +kernel) (by rintro t ⟨⟩; decide) (by unfold NoComma; decide +kernel)
    (Boxes.unknown_opaque editRow _ _ editRow_ok.2) (by decide +kernel) (by decide +kernel) (by decide +kernel)

example : run twoFiles [word "alpha", word "edit", word "-drop", word "free,xxxx", word "--base_media_decode_time=0x102", word "b", word "b"] = ⟨.exit 0, [], .wrote (word "b") []⟩ :=
  edit_in_place twoFiles (by decide) line_drop (names := [word "free", word "xxxx"]) (by decide +kernel) (input := word "b") (output := word "b") (more := [])
    (.plain (.inr (by decide +kernel)) _) rfl rfl (by decide +kernel)

example : ∃ r p v, probeJson BoxMap.std reportFile 600 0 = (.ok r, p) ∧ Json.parse (Str.runes (run twoFiles [word "probe", word "a"]).out) = some v ∧ ReportSays twoSeconds v r :=
  probe_command twoFiles twoSeconds_numeric (vals := []) (opts := []) .nil (.inl rfl) (path := word "a") (more := []) (.plain (.inr (by decide +kernel)) _) rfl (by decide +kernel)

example : run twoFiles [word "dump", word "-offset", word "-size", word "a"] = ⟨.exit 2, [], .none⟩ :=
  unknown_option twoFiles (cmd := [word "dump"]) (decl := dumpFlags) (by simp [withOptions]) (opts := [word "-offset"])
    (.cons (name := word "offset") (by decide +kernel) (.switch (.inl rfl)) .nil) (dashes := [0x2d]) (name := word "size") (.inl rfl) (by unfold Line.Named; decide +kernel)
    (by decide +kernel) (by decide +kernel) (by decide +kernel) [word "a"]

/-- Numbers with a leading zero are octal, as in Go: `-base_media_decode_time 010` sets 8. -/
example : parseUint (word "010") = some 8 ∧ parseUint (word "1_000") = some 1000 ∧ parseUint (word "_1") = none ∧ parseUint (word "18446744073709551616") = none := by decide +kernel

end Mp4.Props
