import Verif.Props.ToolExtract
import Verif.Props.ToolPssh
import Verif.Props.StringifyTotal

/-!
# C61: `mp4tool dump`
-/

namespace Mp4.Props

open Mp4 Mp4.Tool Mp4.Str

variable {d : Bytes}

/-! ## What a line says -/

/-- a number in decimal digits, or in hexadecimal ones after `0x`, without zeros in front -/
def IsNumber (hex : Bool) (n : Nat) (t : Text) : Prop :=
  if hex then ∃ u, t = lit "0x" ++ u ∧ u ≠ [] ∧ (u.head? = some 48 → u = [48]) ∧ (∀ c ∈ u, (48 ≤ c ∧ c ≤ 57) ∨ (97 ≤ c ∧ c ≤ 102)) ∧ textValue 16 u = n
  else t ≠ [] ∧ (t.head? = some 48 → t = [48]) ∧ (∀ c ∈ t, 48 ≤ c ∧ c ≤ 57) ∧ textValue 10 t = n

/-- bytes, each as `0x` and two digits, with blanks between them -/
def hexList : Bytes → Text
  | [] => []
  | b :: l => lit "0x" ++ hexText [b] ++ (if l = [] then [] else 32 :: hexList l)

/-- `mdat`, `free` and `skip` -/
def Bulky (t : BoxType) : Prop := t.bytes ∈ ["mdat", "free", "skip"].map (fun s => s.toList.map fun c => BitVec.ofNat 8 c.toNat)

/-- Has the user asked for the whole contents of the box, by its name or by `-a`? -/
def Full (cfg : DumpCfg) (t : BoxType) : Prop := t.toStr ∈ cfg.full ∨ cfg.showAll = true ∧ ¬ Bulky t

/-- A box with a payload of 64 bytes or more of a type that the tool takes for a table; a size smaller than that of the header counts
as large. -/
def BigTable (bi : BoxInfo) : Prop :=
  (bi.headerSize + 64 ≤ bi.size ∨ bi.size < bi.headerSize) ∧ bi.type.bytes ∈ tableTypes.map (fun s => s.toList.map fun c => BitVec.ofNat 8 c.toNat)

/-- the remark that there is more to see -/
def hint (t : BoxType) : Text := lit " (use \"-full " ++ t.toStr.map (·.toNat) ++ lit "\" to show all)"

/-- The box is of an unknown type, or of an unknown version, which is remarked. -/
def Undecoded (d : Bytes) (bi : BoxInfo) (mark : Text) : Prop :=
  BoxMap.std.isSupported bi.type bi.ctx = false ∧ mark = [] ∨
    BoxMap.std.isSupported bi.type bi.ctx = true ∧ BadVersion d bi ∧ mark = lit " (unsupported box version)"

/-- the payload of a box -/
def payloadBytes (d : Bytes) (bi : BoxInfo) : Bytes := (d.drop (bi.offset + bi.headerSize)).take (bi.size - bi.headerSize)

/-- What stands behind the first part of a line, which has `used` characters: the contents, or a remark that they are not shown, for which
there has to be a reason. -/
inductive Rest (d : Bytes) (cfg : DumpCfg) (bi : BoxInfo) (used : Nat) : Text → Prop where
  | content {box : BoxVal} {n p : Nat} {str : Text}
      (h : BoxMap.std.unmarshalAny d bi.type (sub64 bi.size bi.headerSize) bi.ctx (bi.offset + bi.headerSize) = (.ok (box, n), p))
      (hs : stringify cfg.beyond box.bd box.sv [] bi.ctx = some str)
      (hf : Full cfg bi.type ∨ ¬ Bulky bi.type ∧ ¬ BigTable bi ∧ used + str.length + 2 ≤ cfg.width) :
      Rest d cfg bi used (if str = [] then [] else 32 :: str)
  | wide {box : BoxVal} {n p : Nat} {str : Text}
      (h : BoxMap.std.unmarshalAny d bi.type (sub64 bi.size bi.headerSize) bi.ctx (bi.offset + bi.headerSize) = (.ok (box, n), p))
      (hs : stringify cfg.beyond box.bd box.sv [] bi.ctx = some str)
      (hf : ¬ Full cfg bi.type) (hb : ¬ Bulky bi.type) (ht : ¬ BigTable bi) (hw : cfg.width < used + str.length + 2) :
      Rest d cfg bi used (lit " ..." ++ hint bi.type)
  | table (hk : BoxMap.std.isSupported bi.type bi.ctx = true) (hf : ¬ Full cfg bi.type) (hb : ¬ Bulky bi.type) (ht : BigTable bi) :
      Rest d cfg bi used (lit " ..." ++ hint bi.type)
  | bulk (hf : ¬ Full cfg bi.type) (hb : Bulky bi.type) : Rest d cfg bi used (lit " Data=[...]" ++ hint bi.type)
  | unknown {mark : Text} (hf : ¬ Full cfg bi.type) (hb : ¬ Bulky bi.type) (hu : Undecoded d bi mark) :
      Rest d cfg bi used (mark ++ lit " Data=[...]" ++ hint bi.type)
  | data {mark : Text} (hf : Full cfg bi.type) (hu : Undecoded d bi mark) (hin : bi.offset + bi.size ≤ d.length)
      (hh : bi.headerSize ≤ bi.size) : Rest d cfg bi used (mark ++ lit " Data=[" ++ hexList (payloadBytes d bi) ++ [93])

/-- The line about a box: indented by two blanks per level, its name, a remark if its type is unknown, its offset if asked for, its size, and
the rest. -/
def DumpLine (d : Bytes) (cfg : DumpCfg) (path : List BoxType) (bi : BoxInfo) (line : Text) : Prop :=
  ∃ off size rest, IsNumber cfg.hex bi.offset off ∧ IsNumber cfg.hex bi.size size ∧
    let first := List.replicate (2 * (path.length - 1)) 32 ++ lit "[" ++ bi.type.toStr.map (·.toNat) ++ lit "]" ++
      (if BoxMap.std.isSupported bi.type bi.ctx then [] else lit " (unsupported box type)") ++
      (if cfg.offset then lit " Offset=" ++ off else []) ++ lit " Size=" ++ size
    line = first ++ rest ∧ Rest d cfg bi first.length rest

/-! ## What a call of the handler does -/

/-- what a call of the handler does, apart from expanding -/
inductive Step where
  | enter (line : Text) (n : Nat)
  | print (line : Text)
  | fail (e : Err)
  | stop
  | panic
  | hang

def addLine (line : Text) (s : DumpSt) : DumpSt := { s with lines := s.lines ++ [line] }

def Step.result : Step → Out Unit
  | .enter _ _ => .ok ()
  | .print _ => .ok ()
  | .fail e => .err e
  | .stop => .err .eof
  | .panic => .panic
  | .hang => .hang

def Step.after : Step → DumpSt → DumpSt
  | .enter line _, s => addLine line s
  | .print line, s => addLine line s
  | .stop, s => { s with stop := true }
  | _, s => s

def rawStep (d : Bytes) (bi : BoxInfo) (full : Bool) (line : Text) : Step :=
  if full then
    if maxAlloc < sub64 bi.size bi.headerSize then .stop
    else
      match (readDataP d bi ⟨none, 0⟩ 0).1 with
      | .ok (.ok _, b) => .print (line ++ lit " Data=[" ++ hexBytes b ++ [93])
      | .ok (.error e, _) => .fail e
      | .err e => .fail e
      | .panic => .panic
      | .hang => .hang
  else .print (line ++ lit " Data=[...]" ++ useFull bi.type)

def dumpStep (d : Bytes) (cfg : DumpCfg) (x : Handle Unit) : Step :=
  let line := lineStart cfg x
  let named := cfg.full.any (fun s => decide (s = x.info.type.toStr))
  if !named && bulky x.info.type then .print (line ++ lit " Data=[...]" ++ useFull x.info.type)
  else
    let full := named || cfg.showAll
    if BoxMap.std.isSupported x.info.type x.info.ctx then
      if !full && 64 ≤ sub64 x.info.size x.info.headerSize && noChildren x.info.type then .print (line ++ lit " ..." ++ useFull x.info.type)
      else
        match (readPayloadP BoxMap.std d x.info 0).1 with
        | .ok (box, n) =>
          match stringify cfg.beyond box.bd box.sv [] x.info.ctx with
          | none => .stop
          | some str => .enter (if !full && cfg.width < line.length + str.length + 2 then line ++ lit " ..." ++ useFull x.info.type
              else if str ≠ [] then line ++ 32 :: str else line) n
        | .err e => if e = .unsupportedVersion then rawStep d x.info full (line ++ lit " (unsupported box version)") else .fail e
        | .panic => .panic
        | .hang => .hang
    else rawStep d x.info full line

theorem seekStart_indep (off p q : Nat) : (∃ e, seekStartP off p = (.err e, p) ∧ seekStartP off q = (.err e, q)) ∨ seekStartP off p = seekStartP off q := by
  unfold seekStartP
  by_cases h : 2 ^ 63 ≤ off % U64
  · rw [if_pos h, if_pos h]
    exact .inl ⟨_, rfl, rfl⟩
  · rw [if_neg h, if_neg h]
    exact .inr rfl

theorem payload_indep (bi : BoxInfo) (p q : Nat) : (readPayloadP BoxMap.std d bi p).1 = (readPayloadP BoxMap.std d bi q).1 := by
  unfold readPayloadP BoxInfo.seekToPayload
  rcases seekStart_indep (add64 bi.offset bi.headerSize) p q with ⟨e, h1, h2⟩ | h
  · rw [M.bind_err h1, M.bind_err h2]
  · show (M.bind _ _ p).1 = (M.bind _ _ q).1
    unfold M.bind
    rw [h]

theorem data_indep (bi : BoxInfo) (w : Dest) (p q : Nat) : (readDataP d bi w p).1 = (readDataP d bi w q).1 := by
  unfold readDataP BoxInfo.seekToPayload
  rcases seekStart_indep (add64 bi.offset bi.headerSize) p q with ⟨e, h1, h2⟩ | h
  · rw [h1, h2]
  · rw [h]

section
variable {path : List BoxType} {bi : BoxInfo} {children : Nat → Unit → TM DumpSt Unit (List Unit)}

theorem println_run (line : Text) (k : DProg) (co : Nat) (st : TSt DumpSt Unit) :
    runProg BoxMap.std d path bi children (println line k) co st =
      runProg BoxMap.std d path bi children k co ⟨st.pos, addLine line st.user, st.log⟩ := by
  unfold println
  rw [runProg, M.bind_ok (M.get_run _), runProg, M.bind_ok (M.modify_run _ _)]
  rfl

theorem panics_run (co : Nat) (st : TSt DumpSt Unit) :
    runProg BoxMap.std d path bi children panics co st = (.err .eof, ⟨st.pos, { st.user with stop := true }, st.log⟩) := by
  unfold panics
  rw [runProg, M.bind_ok (M.get_run _), runProg, M.bind_ok (M.modify_run _ _)]
  rfl

theorem raw_run (full : Bool) (line : Text) (co : Nat) (st : TSt DumpSt Unit) :
    ∃ q, runProg BoxMap.std d path bi children (dumpRaw bi full line) co st =
      ((rawStep d bi full line).result, ⟨q, (rawStep d bi full line).after st.user, st.log⟩) := by
  unfold dumpRaw rawStep
  cases full with
  | false => exact ⟨st.pos, println_run _ _ _ _⟩
  | true =>
    simp only [if_true]
    split
    · exact ⟨st.pos, panics_run co st⟩
    · rw [data_indep bi ⟨none, 0⟩ 0 st.pos, runProg]
      cases hr : readDataP d bi ⟨none, 0⟩ st.pos with
      | mk o p =>
        have e1 : (liftP (readDataP d bi ⟨none, 0⟩) : TM DumpSt Unit _) st = (o, { st with pos := p }) := by
          rw [liftP_run, hr]
        cases o with
        | ok r =>
          obtain ⟨r, b⟩ := r
          rw [M.bind_ok e1]
          cases r with
          | ok n => exact ⟨p, println_run _ _ _ _⟩
          | error e => exact ⟨p, rfl⟩
        | err e => exact ⟨p, M.bind_err e1⟩
        | panic => exact ⟨p, M.bind_panic e1⟩
        | hang => exact ⟨p, M.bind_hang e1⟩

end

/-- the handler -/
theorem dumpTool_run (cfg : DumpCfg) (x : Handle Unit) (children : Nat → Unit → TM DumpSt Unit (List Unit)) (st : TSt DumpSt Unit) :
    ∃ q, runProg BoxMap.std d x.path x.info children (dumpTool cfg x) 0 st =
      match dumpStep d cfg x with
      | .enter line n => runProg BoxMap.std d x.path x.info children (.expand () dumpDone) (add64 (add64 x.info.offset x.info.headerSize) n)
          ⟨q, addLine line st.user, st.log⟩
      | s => (s.result, ⟨q, s.after st.user, st.log⟩) := by
  have raw : ∀ (full : Bool) (line : Text) (co : Nat) (st : TSt DumpSt Unit), ∃ q,
      runProg BoxMap.std d x.path x.info children (dumpRaw x.info full line) co st =
        match rawStep d x.info full line with
        | .enter line n => runProg BoxMap.std d x.path x.info children (.expand () dumpDone) (add64 (add64 x.info.offset x.info.headerSize) n)
            ⟨q, addLine line st.user, st.log⟩
        | s => (s.result, ⟨q, s.after st.user, st.log⟩) := by
    intro full line co st
    obtain ⟨q, e⟩ := raw_run (d := d) (path := x.path) (bi := x.info) (children := children) full line co st
    refine ⟨q, ?_⟩
    rw [e]
    have hne : ∀ l n, rawStep d x.info full line ≠ .enter l n := by
      intro l n
      unfold rawStep
      split
      · split
        · simp
        · split <;> simp
      · simp
    generalize rawStep d x.info full line = s at hne
    cases s with
    | enter l n => exact absurd rfl (hne l n)
    | _ => rfl
  unfold dumpTool dumpStep
  simp only
  generalize cfg.full.any (fun s => decide (s = x.info.type.toStr)) = named
  by_cases h1 : (!named && bulky x.info.type) = true
  · rw [if_pos h1, if_pos h1]
    exact ⟨st.pos, println_run _ _ _ _⟩
  rw [if_neg h1, if_neg h1]
  generalize (named || cfg.showAll) = full
  by_cases h2 : BoxMap.std.isSupported x.info.type x.info.ctx = true
  · rw [if_pos h2, if_pos h2]
    by_cases h3 : (!full && decide (64 ≤ sub64 x.info.size x.info.headerSize) && noChildren x.info.type) = true
    · rw [if_pos h3, if_pos h3]
      exact ⟨st.pos, println_run _ _ _ _⟩
    rw [if_neg h3, if_neg h3, payload_indep x.info 0 st.pos, runProg]
    cases hr : readPayloadP BoxMap.std d x.info st.pos with
    | mk o p =>
      cases o with
      | ok r =>
        obtain ⟨box, n⟩ := r
        have e1 : (tryM (liftP (readPayloadP BoxMap.std d x.info)) : TM DumpSt Unit _) st = (.ok (.ok (box, n)), { st with pos := p }) := by
          unfold tryM; rw [liftP_run, hr]
        rw [M.bind_ok e1]
        simp only [dumpPayload]
        cases hs : stringify cfg.beyond box.bd box.sv [] x.info.ctx with
        | none => exact ⟨p, panics_run _ _⟩
        | some str => exact ⟨p, println_run _ _ _ _⟩
      | err e =>
        have e1 : (tryM (liftP (readPayloadP BoxMap.std d x.info)) : TM DumpSt Unit _) st = (.ok (.error e), { st with pos := p }) := by
          unfold tryM; rw [liftP_run, hr]
        rw [M.bind_ok e1]
        simp only [dumpPayload]
        by_cases he : e = .unsupportedVersion
        · rw [if_pos he, if_pos he]
          exact raw _ _ _ _
        · rw [if_neg he, if_neg he]
          exact ⟨p, rfl⟩
      | panic =>
        have e1 : (tryM (liftP (readPayloadP BoxMap.std d x.info)) : TM DumpSt Unit _) st = (.panic, { st with pos := p }) := by
          unfold tryM; rw [liftP_run, hr]
        exact ⟨p, M.bind_panic e1⟩
      | hang =>
        have e1 : (tryM (liftP (readPayloadP BoxMap.std d x.info)) : TM DumpSt Unit _) st = (.hang, { st with pos := p }) := by
          unfold tryM; rw [liftP_run, hr]
        exact ⟨p, M.bind_hang e1⟩
  · rw [if_neg h2, if_neg h2]
    exact raw _ _ _ _

/-! ## The lines mean what they say -/

theorem numLoop_digits {P : Nat → Prop} {base : Nat} (hb : 0 < base) (hP : ∀ k, k < base → P (digitText k)) : ∀ (fuel n : Nat) (acc : Text),
    (∀ c ∈ acc, P c) → ∀ c ∈ numLoop base fuel n acc, P c
  | 0, _, acc, h => h
  | fuel + 1, n, acc, h => by
    have h' : ∀ c ∈ digitText (n % base) :: acc, P c := by
      intro c hc
      rcases List.mem_cons.1 hc with rfl | hc
      · exact hP _ (Nat.mod_lt _ hb)
      · exact h c hc
    rw [numLoop]
    split
    · exact h'
    · exact numLoop_digits hb hP fuel _ _ h'

theorem numLoop_ne {base : Nat} : ∀ (fuel n : Nat) (acc : Text), acc ≠ [] → numLoop base fuel n acc ≠ []
  | 0, _, _, h => h
  | fuel + 1, n, acc, _ => by
    rw [numLoop]
    split
    · simp
    · exact numLoop_ne fuel _ _ (by simp)

theorem num_ne (base n : Nat) : num base n ≠ [] := by
  unfold num
  rw [numLoop]
  split
  · simp
  · exact numLoop_ne _ _ _ (by simp)

theorem numLoop_first {base : Nat} (hb : 1 < base) : ∀ (fuel n : Nat) (acc : Text), n < fuel →
    ∃ c cs, numLoop base fuel n acc = c :: cs ∧ (c = 48 → n = 0 ∧ cs = acc)
  | 0, n, acc, h => by omega
  | fuel + 1, n, acc, h => by
    unfold numLoop
    by_cases h0 : n / base = 0
    · rw [if_pos h0]
      refine ⟨_, _, rfl, fun hc => ⟨?_, rfl⟩⟩
      have hn : n < base := by
        rcases (Nat.div_eq_zero_iff).1 h0 with h | h <;> omega
      rw [Nat.mod_eq_of_lt hn] at hc
      unfold digitText at hc
      split at hc <;> omega
    · rw [if_neg h0]
      have : n / base < n := Nat.div_lt_self (Nat.pos_of_ne_zero (fun h => h0 (by rw [h]; exact Nat.zero_div _))) hb
      obtain ⟨c, cs, e, h3⟩ := numLoop_first hb fuel (n / base) (digitText (n % base) :: acc) (by omega)
      exact ⟨c, cs, e, fun hc => absurd (h3 hc).1 h0⟩

theorem num_first {base : Nat} (hb : 1 < base) (n : Nat) (h : (num base n).head? = some 48) : num base n = [48] := by
  obtain ⟨c, cs, e, h3⟩ := numLoop_first hb (n + 1) n [] (by omega)
  have e' : num base n = c :: cs := e
  rw [e'] at h ⊢
  cases h
  rw [(h3 rfl).2]

theorem numText_is (cfg : DumpCfg) (n : Nat) : IsNumber cfg.hex n (numText cfg n) := by
  unfold IsNumber numText
  cases cfg.hex with
  | false =>
    refine ⟨num_ne 10 n, num_first (by decide) n, ?_, number_text (by decide) (by decide) n⟩
    exact numLoop_digits (by decide) (by decide) _ _ _ (by simp)
  | true =>
    refine ⟨_, rfl, num_ne 16 n, num_first (by decide) n, ?_, number_text (by decide) (by decide) n⟩
    exact numLoop_digits (P := fun c => (48 ≤ c ∧ c ≤ 57) ∨ (97 ≤ c ∧ c ≤ 102)) (by decide) (by decide) _ _ _ (by simp)

theorem hexBytes_eq : ∀ b : Bytes, hexBytes b = hexList b
  | [] => rfl
  | [x] => by simp [hexBytes, join, hexList, hexPad_byte]
  | x :: y :: l => by
    have ih := hexBytes_eq (y :: l)
    unfold hexBytes at ih ⊢
    simp only [List.map_cons] at ih ⊢
    rw [join, ih, hexPad_byte]
    · show _ = lit "0x" ++ hexText [x] ++ (if y :: l = [] then [] else 32 :: hexList (y :: l))
      rw [if_neg (by simp)]
      simp
    · simp

theorem bulky_iff (t : BoxType) : bulky t = true ↔ Bulky t := by
  have e : ["mdat", "free", "skip"].map (fun s => s.toList.map fun c => BitVec.ofNat 8 c.toNat) =
      ([tMdat, ⟨0x66, 0x72, 0x65, 0x65⟩, ⟨0x73, 0x6b, 0x69, 0x70⟩] : List BoxType).map BoxType.bytes := by decide +kernel
  have inj : ∀ x : BoxType, t.bytes = x.bytes → t = x := by
    intro x he
    obtain ⟨a, b, c, e⟩ := t
    obtain ⟨a', b', c', e'⟩ := x
    simp only [BoxType.bytes, List.cons.injEq, and_true] at he
    obtain ⟨h1, h2, h3, h4⟩ := he
    subst h1 h2 h3 h4
    rfl
  unfold Bulky
  rw [e]
  unfold bulky
  simp only [Bool.or_eq_true, decide_eq_true_eq, List.map_cons, List.map_nil, List.mem_cons, List.not_mem_nil, or_false]
  constructor
  · rintro ((rfl | rfl) | rfl)
    · exact .inl rfl
    · exact .inr (.inl rfl)
    · exact .inr (.inr rfl)
  · rintro (h | h | h)
    · exact .inl (.inl (inj _ h))
    · exact .inl (.inr (inj _ h))
    · exact .inr (inj _ h)

theorem named_iff (cfg : DumpCfg) (t : BoxType) : cfg.full.any (fun s => decide (s = t.toStr)) = true ↔ t.toStr ∈ cfg.full := by
  rw [List.any_eq_true]
  constructor
  · rintro ⟨x, hx, hd⟩
    rw [← of_decide_eq_true hd]
    exact hx
  · intro h
    exact ⟨_, h, decide_eq_true rfl⟩

theorem full_iff {cfg : DumpCfg} {t : BoxType} (h : ¬ (!cfg.full.any (fun s => decide (s = t.toStr)) && bulky t) = true) :
    (cfg.full.any (fun s => decide (s = t.toStr)) || cfg.showAll) = true ↔ Full cfg t := by
  unfold Full
  rw [Bool.or_eq_true, named_iff]
  rw [Bool.and_eq_true, Bool.not_eq_true', bulky_iff] at h
  constructor
  · rintro (h1 | h1)
    · exact .inl h1
    · by_cases hn : t.toStr ∈ cfg.full
      · exact .inl hn
      · refine .inr ⟨h1, fun hb => h ⟨?_, hb⟩⟩
        apply eq_false_of_ne_true
        rw [named_iff]
        exact hn
  · rintro (h1 | h1)
    · exact .inl h1
    · exact .inr h1.1

theorem bigTable_iff {bi : BoxInfo} (h : HeaderAt d bi) : BigTable bi ↔ (64 ≤ sub64 bi.size bi.headerSize ∧ noChildren bi.type = true) := by
  unfold BigTable
  rw [noChildren_iff]
  have h1 := h.hdr
  have h2 := h.lt
  have : (bi.headerSize + 64 ≤ bi.size ∨ bi.size < bi.headerSize) ↔ 64 ≤ sub64 bi.size bi.headerSize := by
    unfold sub64
    simp only [U64] at *
    omega
  rw [this]

theorem lit_br : lit "[" = [91] ∧ lit "]" = [93] := by decide

/-- the beginning of the line -/
theorem line_of {cfg : DumpCfg} {x : Handle Unit} {rest : Text} (h : Rest d cfg x.info (lineStart cfg x).length rest) :
    DumpLine d cfg x.path x.info (lineStart cfg x ++ rest) := by
  refine ⟨numText cfg x.info.offset, numText cfg x.info.size, rest, numText_is _ _, numText_is _ _, ?_⟩
  have e : List.replicate (2 * (x.path.length - 1)) 32 ++ lit "[" ++ x.info.type.toStr.map (·.toNat) ++ lit "]" ++
      (if BoxMap.std.isSupported x.info.type x.info.ctx then [] else lit " (unsupported box type)") ++
      (if cfg.offset then lit " Offset=" ++ numText cfg x.info.offset else []) ++ lit " Size=" ++ numText cfg x.info.size = lineStart cfg x := by
    unfold lineStart nameText
    rw [lit_br.1, lit_br.2, Nat.mul_comm]
    simp only [List.append_assoc, List.cons_append, List.nil_append]
  simp only
  rw [e]
  exact ⟨rfl, h⟩

/-- `ReadData` of a box, whole or not at all -/
theorem data_whole {bi : BoxInfo} (hd : d.length ≤ maxAlloc) (h : HeaderAt d bi) (hs : ¬ maxAlloc < sub64 bi.size bi.headerSize) :
    bi.headerSize ≤ bi.size ∧ ((bi.offset + bi.size ≤ d.length ∧ ∃ n, (readDataP d bi ⟨none, 0⟩ 0).1 = .ok (.ok n, payloadBytes d bi)) ∨
      (d.length < bi.offset + bi.size ∧ ∃ b, (readDataP d bi ⟨none, 0⟩ 0).1 = .ok (.error .eof, b))) := by
  have h1 := h.hdr
  have h2 := h.lt
  have h3 := h.inside
  have hle : bi.headerSize ≤ bi.size := by
    unfold sub64 at hs
    simp only [U64, maxAlloc] at *
    omega
  have e : sub64 bi.size bi.headerSize = bi.size - bi.headerSize := by
    unfold sub64
    simp only [U64] at *
    omega
  rw [e] at hs
  refine ⟨hle, ?_⟩
  unfold readDataP payloadBytes
  rw [seekToPayload_ok hd h3 0]
  simp only [e]
  by_cases h0 : bi.size - bi.headerSize = 0
  · refine .inl ⟨by omega, 0, ?_⟩
    rw [h0]
    rfl
  by_cases hin : bi.offset + bi.size ≤ d.length
  · refine .inl ⟨hin, bi.size - bi.headerSize, ?_⟩
    rw [copyNP_ok h0 (by simp only [maxAlloc] at hs; omega) (by omega)]
  · refine .inr ⟨by omega, ?_⟩
    obtain ⟨p, hp⟩ := copyNP_eof (d := d) (pos := bi.offset + bi.headerSize) h0 (by simp only [maxAlloc] at hs; omega) (by omega)
    rw [hp]
    exact ⟨_, rfl⟩

/-- what is known about a call -/
def Step.Right (d : Bytes) (cfg : DumpCfg) (x : Handle Unit) : Step → Prop
  | .enter line n => DumpLine d cfg x.path x.info line ∧ PayloadN d x.info n
  | .print line => DumpLine d cfg x.path x.info line
  | .fail _ => True
  | .stop => Full cfg x.info.type ∧ (∃ mark, Undecoded d x.info mark) ∧ (x.info.size < x.info.headerSize ∨ 2 ^ 48 + x.info.headerSize < x.info.size)
  | .panic => False
  | .hang => PayloadHangs d x.info

theorem raw_right (hd : d.length ≤ maxAlloc) {cfg : DumpCfg} {x : Handle Unit} (h : HeaderAt d x.info) {full : Bool}
    (hf : full = true ↔ Full cfg x.info.type) (hb : full = false → ¬ Bulky x.info.type) {mark : Text} (hu : Undecoded d x.info mark) :
    (rawStep d x.info full (lineStart cfg x ++ mark)).Right d cfg x := by
  unfold rawStep
  cases full with
  | false =>
    have := line_of (x := x) (.unknown (used := (lineStart cfg x).length) (fun h => by cases hf.2 h) (hb rfl) hu)
    rw [if_neg (by simp)]
    simp only [List.append_assoc] at this ⊢
    exact this
  | true =>
    rw [if_pos rfl]
    by_cases hs : maxAlloc < sub64 x.info.size x.info.headerSize
    · rw [if_pos hs]
      refine ⟨hf.1 rfl, ⟨_, hu⟩, ?_⟩
      have h1 := h.hdr
      have h2 := h.lt
      unfold sub64 at hs
      simp only [U64, maxAlloc] at *
      omega
    · rw [if_neg hs]
      obtain ⟨hle, ⟨hin, n, e⟩ | ⟨hin, b, e⟩⟩ := data_whole hd h hs
      · rw [e]
        have := line_of (x := x) (.data (used := (lineStart cfg x).length) (hf.1 rfl) hu hin hle)
        simp only [List.append_assoc, hexBytes_eq] at this ⊢
        exact this
      · rw [e]
        trivial

theorem dumpStep_right (hd : d.length ≤ maxAlloc) (cfg : DumpCfg) {x : Handle Unit} (h : HeaderAt d x.info) : (dumpStep d cfg x).Right d cfg x := by
  unfold dumpStep
  simp only
  by_cases h1 : (!cfg.full.any (fun s => decide (s = x.info.type.toStr)) && bulky x.info.type) = true
  · rw [if_pos h1, List.append_assoc]
    rw [Bool.and_eq_true, Bool.not_eq_true', bulky_iff] at h1
    refine line_of (.bulk ?_ h1.2)
    rintro (h2 | h2)
    · rw [(named_iff cfg x.info.type).2 h2] at h1
      simp at h1
    · exact h2.2 h1.2
  rw [if_neg h1]
  have hf := full_iff h1
  have hb : (cfg.full.any (fun s => decide (s = x.info.type.toStr)) || cfg.showAll) = false → ¬ Bulky x.info.type := by
    intro hn hb
    rw [Bool.or_eq_false_iff] at hn
    rw [hn.1, (bulky_iff _).2 hb] at h1
    exact h1 rfl
  generalize (cfg.full.any (fun s => decide (s = x.info.type.toStr)) || cfg.showAll) = full at hf hb ⊢
  by_cases h2 : BoxMap.std.isSupported x.info.type x.info.ctx = true
  · rw [if_pos h2]
    by_cases h3 : (!full && decide (64 ≤ sub64 x.info.size x.info.headerSize) && noChildren x.info.type) = true
    · rw [if_pos h3, List.append_assoc]
      rw [Bool.and_eq_true, Bool.and_eq_true, Bool.not_eq_true', decide_eq_true_eq] at h3
      obtain ⟨⟨h4, h5⟩, h6⟩ := h3
      exact line_of (.table h2 (fun h => by rw [hf.2 h] at h4; cases h4) (hb h4) ((bigTable_iff h).2 ⟨h5, h6⟩))
    rw [if_neg h3]
    have hnt : full = false → ¬ BigTable x.info := by
      intro hn ht
      obtain ⟨h5, h6⟩ := (bigTable_iff h).1 ht
      rw [hn, decide_eq_true h5, h6] at h3
      exact h3 rfl
    have hp := payload_post hd h.inside
    rw [readPayloadP_ok hd h.inside 0]
    cases hr : BoxMap.std.unmarshalAny d x.info.type (sub64 x.info.size x.info.headerSize) x.info.ctx (x.info.offset + x.info.headerSize) with
    | mk o p =>
      rw [hr] at hp
      cases o with
      | ok r =>
        obtain ⟨box, n⟩ := r
        simp only
        obtain ⟨str, hs⟩ := stringify_any cfg.beyond d hd _ h.inside _ _ _ _ _ _ hr [] x.info.ctx
        rw [hs]
        simp only
        refine ⟨?_, box, p, hr⟩
        by_cases hw : (!full && decide (cfg.width < (lineStart cfg x).length + str.length + 2)) = true
        · rw [if_pos hw, List.append_assoc]
          rw [Bool.and_eq_true, Bool.not_eq_true', decide_eq_true_eq] at hw
          exact line_of (.wide hr hs (fun h => by rw [hf.2 h] at hw; cases hw.1) (hb hw.1) (hnt hw.1) hw.2)
        · rw [if_neg hw]
          have := line_of (x := x) (.content (used := (lineStart cfg x).length) hr hs (by
            cases hfl : full with
            | true => exact .inl (hf.1 hfl)
            | false =>
              refine .inr ⟨hb hfl, hnt hfl, ?_⟩
              rw [hfl] at hw
              simp at hw
              exact hw))
          by_cases h0 : str = []
          · rw [if_neg (by simp [h0])]
            rw [if_pos h0, List.append_nil] at this
            exact this
          · rw [if_pos h0]
            rw [if_neg h0] at this
            exact this
      | err e =>
        simp only
        by_cases he : e = .unsupportedVersion
        · rw [if_pos he]
          subst he
          exact raw_right hd h hf hb (.inr ⟨h2, ⟨p, hr⟩, rfl⟩)
        · rw [if_neg he]
          trivial
      | panic => exact hp
      | hang => 
        show (BoxMap.std.unmarshalAny _ _ _ _ _).1 = _
        rw [hr]
  · rw [if_neg h2]
    have := raw_right (mark := []) hd h hf hb (.inl ⟨eq_false_of_ne_true h2, rfl⟩)
    rw [List.append_nil] at this
    exact this

/-! ## Arbitrary files -/

/-- the effect of a call -/
def dumped (d : Bytes) (cfg : DumpCfg) (x : Handle Unit) (s : DumpSt) : DumpSt := (dumpStep d cfg x).after s

theorem dumpTool_notes (cfg : DumpCfg) : Notes BoxMap.std d (dumpTool cfg) (dumped d cfg) ⟨[], false⟩ := by
  intro x children hc st hs hx
  obtain ⟨q, e⟩ := dumpTool_run (d := d) cfg x children st
  rw [e]
  have hw : Noted (dumped d cfg) ⟨[], false⟩ (⟨q, dumped d cfg x st.user, st.log⟩ : TSt DumpSt Unit) := by
    show dumped d cfg x st.user = (calls st.log).foldl (fun s x => dumped d cfg x s) ⟨[], false⟩
    rw [hx, List.foldl_append, ← hs]
    rfl
  unfold dumped at hw
  cases hstep : dumpStep d cfg x with
  | enter line n =>
    rw [hstep] at hw
    refine noted_expand hc (fun r co => ?_) _ _ hw
    cases r with
    | ok _ => exact gathers_pure ()
    | error e => exact gathers_fail e
  | print line => rw [hstep] at hw; exact hw
  | fail e => rw [hstep] at hw; exact hw
  | stop => rw [hstep] at hw; exact hw
  | panic => rw [hstep] at hw; exact hw
  | hang => rw [hstep] at hw; exact hw

/-- the line that a call prints -/
def Step.line? : Step → Option Text
  | .enter line _ => some line
  | .print line => some line
  | _ => none

def Step.stops : Step → Bool
  | .stop => true
  | _ => false

theorem dumped_calls (cfg : DumpCfg) (l : List (Handle Unit)) (s : DumpSt) : l.foldl (fun s x => dumped d cfg x s) s =
    ⟨s.lines ++ l.filterMap (fun x => (dumpStep d cfg x).line?), s.stop || l.any (fun x => (dumpStep d cfg x).stops)⟩ := by
  induction l generalizing s with
  | nil => simp
  | cons x l ih =>
    rw [List.foldl_cons, ih]
    unfold dumped
    cases hx : dumpStep d cfg x <;> simp [hx, Step.after, Step.line?, Step.stops, addLine]

/-- **C61**, arbitrary files — Whatever the file, every line that `mp4tool dump` prints, also before an error, is about a box that stands in the
file and that one gets to from the root on the path that the indentation stands for, and is as `DumpLine` says.  It panics only if the whole
contents have been asked for of a box that cannot be decoded and announces less bytes than its header has, or more than 2^48. -/
theorem dump_sound (hd : d.length ≤ 2 ^ 48) (cfg : DumpCfg) (fuel : Nat) :
    (∃ bs : List (List BoxType × BoxInfo × Text), (dump d cfg fuel).2 = bs.map (·.2.2) ∧
      ∀ b ∈ bs, Leads d none b.1 b.2.1 ∧ DumpLine d cfg b.1 b.2.1 b.2.2) ∧
    ((dump d cfg fuel).1 = .panic → ∃ path bi, Leads d none path bi ∧ Full cfg bi.type ∧ (∃ mark, Undecoded d bi mark) ∧
      (bi.size < bi.headerSize ∨ 2 ^ 48 + bi.headerSize < bi.size)) := by
  have hT := traverse_tr hd (dumpTool cfg) fuel () ⟨[], false⟩ 0
  have hF := traverse_facts hd (dumpTool cfg) fuel () ⟨[], false⟩ 0
  have hC := noted_readBoxStructure (dumpTool_notes (d := d) cfg) fuel () 0
  unfold traverse at hT hF
  unfold dump
  generalize readBoxStructure BoxMap.std d (dumpTool cfg) fuel () ⟨0, ⟨[], false⟩, []⟩ = x at hT hF hC
  obtain ⟨o, st⟩ := x
  unfold Noted at hC
  rw [dumped_calls] at hC
  simp only [List.nil_append, Bool.false_or] at hC
  have known : ∀ x ∈ calls st.log, Leads d none x.path x.info ∧ (dumpStep d cfg x).Right d cfg x := by
    intro x hx
    obtain ⟨par, hm⟩ := mem_calls hx
    obtain ⟨rest, hr, hl⟩ := tr_reached (start := none) (base := []) hT hF .root (.inl ⟨rfl, rfl⟩) par x.path x.info hm
    rw [List.nil_append] at hr
    rw [← hr] at hl
    exact ⟨hl, dumpStep_right hd cfg (hF _ hm).1⟩
  have hlines : ∃ bs : List (List BoxType × BoxInfo × Text), st.user.lines = bs.map (·.2.2) ∧
      ∀ b ∈ bs, Leads d none b.1 b.2.1 ∧ DumpLine d cfg b.1 b.2.1 b.2.2 := by
    rw [hC]
    simp only
    generalize calls st.log = l at known
    induction l with
    | nil => exact ⟨[], rfl, by simp⟩
    | cons x l ih =>
      obtain ⟨bs, h1, h2⟩ := ih (fun y hy => known y (List.mem_cons_of_mem _ hy))
      obtain ⟨hl, hr⟩ := known x List.mem_cons_self
      rw [List.filterMap_cons]
      cases hs : dumpStep d cfg x with
      | enter line n =>
        rw [hs] at hr
        refine ⟨(x.path, x.info, line) :: bs, by rw [List.map_cons, ← h1]; rfl, ?_⟩
        intro b hb
        rcases List.mem_cons.1 hb with rfl | hb
        · exact ⟨hl, hr.1⟩
        · exact h2 b hb
      | print line =>
        rw [hs] at hr
        refine ⟨(x.path, x.info, line) :: bs, by rw [List.map_cons, ← h1]; rfl, ?_⟩
        intro b hb
        rcases List.mem_cons.1 hb with rfl | hb
        · exact ⟨hl, hr⟩
        · exact h2 b hb
      | fail e => exact ⟨bs, h1, h2⟩
      | stop => exact ⟨bs, h1, h2⟩
      | panic => exact ⟨bs, h1, h2⟩
      | hang => exact ⟨bs, h1, h2⟩
  have hstop : st.user.stop = true → ∃ path bi, Leads d none path bi ∧ Full cfg bi.type ∧ (∃ mark, Undecoded d bi mark) ∧
      (bi.size < bi.headerSize ∨ 2 ^ 48 + bi.headerSize < bi.size) := by
    intro h
    rw [hC] at h
    obtain ⟨x, hx, hs⟩ := List.any_eq_true.1 h
    obtain ⟨hl, hr⟩ := known x hx
    cases hd : dumpStep d cfg x with
    | stop =>
      rw [hd] at hr
      exact ⟨x.path, x.info, hl, hr⟩
    | _ => rw [hd] at hs; cases hs
  cases o with
  | panic => exact absurd rfl (tr_no_panic hT)
  | ok _ => exact ⟨hlines, by simp⟩
  | err e =>
    refine ⟨hlines, ?_⟩
    intro h
    by_cases hs : st.user.stop = true
    · exact hstop hs
    · change (if st.user.stop = true then Out.panic else .err e) = _ at h
      rw [if_neg hs] at h
      cases h
  | hang => exact ⟨hlines, by simp⟩

/-! ## Well-formed files -/

/-- A file as the tool expects it, for the options given: a box whose contents are asked for can be decoded, unless its type or version is not
known; boxes that are passed over contain no others. -/
def Listed (d : Bytes) (cfg : DumpCfg) : Forest → Prop
  | .nil => True
  | .leaf bi rest => ((∃ mark, Undecoded d bi mark) ∨ ¬ Full cfg bi.type ∧ (Bulky bi.type ∨ BigTable bi)) ∧ Listed d cfg rest
  | .node bi _ kids rest => (¬ Full cfg bi.type ∧ (Bulky bi.type ∨ BigTable bi) → kids = .nil) ∧ Listed d cfg kids ∧ Listed d cfg rest

theorem undecoded_step (hd : d.length ≤ maxAlloc) (cfg : DumpCfg) {x : Handle Unit} (h : HeaderAt d x.info) (hin : x.info.offset + x.info.size ≤ d.length)
    (hle : x.info.headerSize ≤ x.info.size) {mark : Text} (hu : Undecoded d x.info mark) : ∃ line, dumpStep d cfg x = .print line := by
  have raw : ∀ (full : Bool) (line : Text), ∃ l, rawStep d x.info full line = .print l := by
    intro full line
    unfold rawStep
    cases full with
    | false => exact ⟨_, rfl⟩
    | true =>
      have hs : ¬ maxAlloc < sub64 x.info.size x.info.headerSize := by
        have h2 := h.lt
        unfold sub64
        simp only [maxAlloc, U64] at *
        omega
      rw [if_pos rfl, if_neg hs]
      obtain ⟨-, ⟨-, n, e⟩ | ⟨h3, -⟩⟩ := data_whole hd h hs
      · rw [e]; exact ⟨_, rfl⟩
      · omega
  unfold dumpStep
  simp only
  split
  · exact ⟨_, rfl⟩
  rcases hu with ⟨hk, -⟩ | ⟨hk, hb, -⟩
  · rw [if_neg (by rw [hk]; simp)]
    exact raw _ _
  · rw [if_pos hk]
    split
    · exact ⟨_, rfl⟩
    · obtain ⟨p, hp⟩ := hb
      rw [readPayloadP_ok hd h.inside 0, hp]
      simp only [if_true]
      exact raw _ _

theorem passed_step (cfg : DumpCfg) {x : Handle Unit} (h : HeaderAt d x.info) (hk : BoxMap.std.isSupported x.info.type x.info.ctx = true ∨ Bulky x.info.type)
    (hf : ¬ Full cfg x.info.type) (hb : Bulky x.info.type ∨ BigTable x.info) : ∃ line, dumpStep d cfg x = .print line := by
  unfold dumpStep
  simp only
  split
  · exact ⟨_, rfl⟩
  next h1 =>
    have hff := full_iff h1
    generalize hn : (cfg.full.any (fun s => decide (s = x.info.type.toStr)) || cfg.showAll) = full at hff
    have hfalse : full = false := eq_false_of_ne_true fun h => hf (hff.1 h)
    have hnb : ¬ Bulky x.info.type := by
      intro hb
      rw [hfalse] at hn
      rw [Bool.or_eq_false_iff] at hn
      rw [hn.1, (bulky_iff _).2 hb] at h1
      exact h1 rfl
    have hk := hk.resolve_right hnb
    obtain ⟨h5, h6⟩ := (bigTable_iff h).1 (hb.resolve_left hnb)
    rw [if_pos hk, if_pos (by rw [hfalse, decide_eq_true h5, h6]; rfl)]
    exact ⟨_, rfl⟩

theorem node_step (hd : d.length ≤ maxAlloc) (cfg : DumpCfg) {x : Handle Unit} (h : HeaderAt d x.info) {n : Nat} (hn : PayloadN d x.info n) :
    (∃ line, dumpStep d cfg x = .enter line n) ∨ (∃ line, dumpStep d cfg x = .print line) ∧ ¬ Full cfg x.info.type ∧ (Bulky x.info.type ∨ BigTable x.info) := by
  by_cases hp : ¬ Full cfg x.info.type ∧ (Bulky x.info.type ∨ BigTable x.info)
  · exact .inr ⟨passed_step cfg h (.inl (payloadN_supported hn)) hp.1 hp.2, hp⟩
  refine .inl ?_
  unfold dumpStep
  simp only
  have h1 : ¬ (!cfg.full.any (fun s => decide (s = x.info.type.toStr)) && bulky x.info.type) = true := by
    intro h1
    rw [Bool.and_eq_true, Bool.not_eq_true', bulky_iff] at h1
    refine hp ⟨?_, .inl h1.2⟩
    rintro (h2 | h2)
    · rw [(named_iff cfg x.info.type).2 h2] at h1
      simp at h1
    · exact h2.2 h1.2
  rw [if_neg h1]
  have hff := full_iff h1
  generalize (cfg.full.any (fun s => decide (s = x.info.type.toStr)) || cfg.showAll) = full at hff
  rw [if_pos (payloadN_supported hn), if_neg]
  · obtain ⟨box, p, hr⟩ := hn
    rw [readPayloadP_ok hd h.inside 0, hr]
    simp only
    obtain ⟨str, hs⟩ := stringify_any cfg.beyond d hd _ h.inside _ _ _ _ _ _ hr [] x.info.ctx
    rw [hs]
    exact ⟨_, rfl⟩
  · intro h3
    rw [Bool.and_eq_true, Bool.and_eq_true, Bool.not_eq_true', decide_eq_true_eq] at h3
    exact hp ⟨(fun hf => by rw [hff.2 hf] at h3; cases h3.1.1), .inr ((bigTable_iff h).2 ⟨h3.1.2, h3.2⟩)⟩

/-- does the handler expand? -/
def dumpOpens (d : Bytes) (cfg : DumpCfg) (x : Handle Unit) : Bool :=
  match dumpStep d cfg x with
  | .enter _ _ => true
  | _ => false

theorem finishes_of_print {cfg : DumpCfg} {x : Handle Unit} {line : Text} (h : dumpStep d cfg x = .print line) :
    Finishes d (dumpTool cfg) (dumped d cfg) (fun _ _ => ()) x := by
  intro children st _
  obtain ⟨q, e⟩ := dumpTool_run (d := d) cfg x children st
  rw [h] at e
  refine ⟨_, e, ?_⟩
  simp only [dumped]
  rw [h]

theorem expands_of_enter (hd : d.length ≤ maxAlloc) {cfg : DumpCfg} {x : Handle Unit} (hh : HeaderAt d x.info) {n : Nat} (hn : PayloadN d x.info n)
    {line : Text} (h : dumpStep d cfg x = .enter line n) : Expands d (dumpTool cfg) (dumped d cfg) (fun _ => ()) (fun _ _ => ()) x n := by
  intro children st st2 vs _ hc
  obtain ⟨q, e⟩ := dumpTool_run (d := d) cfg x children st
  rw [h] at e
  simp only at e
  have hb := payloadN_bound hd hh.inside hn
  have h8 := hh.hdr
  have eco : add64 (add64 x.info.offset x.info.headerSize) n = x.info.offset + x.info.headerSize + n := by
    unfold add64
    simp only [maxAlloc, U64] at *
    omega
  rw [eco] at e
  have es : (tryM (liftP (expandStart BoxMap.std d x.info (x.info.offset + x.info.headerSize + n))) : TM DumpSt Unit _)
      ⟨q, addLine line st.user, st.log⟩ = (.ok (.ok (x.info.offset + x.info.headerSize + n)),
        ⟨x.info.offset + x.info.headerSize + n, addLine line st.user, st.log⟩) := by
    have : expandStart BoxMap.std d x.info (x.info.offset + x.info.headerSize + n) q =
        (.ok (x.info.offset + x.info.headerSize + n), x.info.offset + x.info.headerSize + n) := by
      unfold expandStart
      rw [if_neg (by omega)]
      have e2 : seekStartP (x.info.offset + x.info.headerSize + n) q =
          (.ok (x.info.offset + x.info.headerSize + n), x.info.offset + x.info.headerSize + n) := by
        unfold seekStartP
        rw [Nat.mod_eq_of_lt (by simp only [maxAlloc, U64] at *; omega), if_neg (by simp only [maxAlloc] at *; omega)]
      rw [M.bind_ok e2]
      rfl
    unfold tryM
    rw [liftP_run, this]
  rw [runProg, M.bind_ok es] at e
  simp only at e
  rw [M.bind_ok (emit_run _ _)] at e
  unfold dumped at hc
  rw [h] at hc
  have hc2 : tryM (children (x.info.offset + x.info.headerSize + n) ()) ⟨x.info.offset + x.info.headerSize + n, addLine line st.user,
      st.log ++ [.openBox x.path x.info (x.info.offset + x.info.headerSize + n)]⟩ = (.ok (.ok vs), st2) := by
    unfold tryM
    simp only [Step.after] at hc
    rw [hc]
  rw [M.bind_ok hc2, M.bind_ok (emit_run _ _)] at e
  exact ⟨_, e, rfl⟩

theorem acts_of_listed (hd : d.length ≤ maxAlloc) (cfg : DumpCfg) : ∀ (F : Forest) {isRoot : Bool} {path : List BoxType} {ctx : Ctx} {pos total : Nat},
    F.WF d isRoot path ctx pos total → Listed d cfg F →
    Acts d (dumpTool cfg) (dumped d cfg) (dumpOpens d cfg) (fun _ => ()) (fun _ _ => ()) path () F := by
  intro F
  induction F with
  | nil => intros; trivial
  | leaf bi rest ih =>
    intro isRoot path ctx pos total hwf hu
    obtain ⟨hp, hwf⟩ := hwf
    obtain ⟨hl, hu⟩ := hu
    obtain ⟨-, hb⟩ := placed_header hd hp
    refine ⟨?_, ih hwf hu⟩
    obtain ⟨line, e⟩ := leaf_step hd cfg (x := ⟨(), bi, path ++ [bi.type]⟩) hb (by have := hp.inFile; rw [hp.offset]; exact this) hp.whole hl
    exact finishes_of_print e
  | node bi n kids rest ihk ih =>
    intro isRoot path ctx pos total hwf hu
    obtain ⟨hp, hn, hwk, hwf⟩ := hwf
    obtain ⟨hl, huk, hu⟩ := hu
    obtain ⟨-, hb⟩ := placed_header hd hp
    refine ⟨?_, ?_, ih hwf hu⟩
    · intro hg
      rcases node_step hd cfg (x := ⟨(), bi, path ++ [bi.type]⟩) hb hn with ⟨line, e⟩ | ⟨⟨line, e⟩, -⟩
      · unfold dumpOpens at hg
        rw [e] at hg
        cases hg
      · exact finishes_of_print e
    · intro hg
      refine ⟨?_, ihk hwk huk⟩
      rcases node_step hd cfg (x := ⟨(), bi, path ++ [bi.type]⟩) hb hn with ⟨line, e⟩ | ⟨⟨line, e⟩, -⟩
      · exact expands_of_enter hd hb hn e
      · unfold dumpOpens at hg
        rw [e] at hg
        cases hg
where
  leaf_step (hd : d.length ≤ maxAlloc) (cfg : DumpCfg) {x : Handle Unit} (h : HeaderAt d x.info) (hin : x.info.offset + x.info.size ≤ d.length)
      (hle : x.info.headerSize ≤ x.info.size) (hl : (∃ mark, Undecoded d x.info mark) ∨ ¬ Full cfg x.info.type ∧ (Bulky x.info.type ∨ BigTable x.info)) :
      ∃ line, dumpStep d cfg x = .print line := by
    by_cases hu : ∃ mark, Undecoded d x.info mark
    · obtain ⟨m, hu⟩ := hu
      exact undecoded_step hd cfg h hin hle hu
    · obtain ⟨hf, hb⟩ := hl.resolve_left hu
      refine passed_step cfg h (.inl ?_) hf hb
      cases hs : BoxMap.std.isSupported x.info.type x.info.ctx with
      | true => rfl
      | false => exact absurd ⟨_, .inl ⟨hs, rfl⟩⟩ hu

/-- the line about a box -/
def lineOf (d : Bytes) (cfg : DumpCfg) (path : List BoxType) (bi : BoxInfo) : Text := ((dumpStep d cfg ⟨(), bi, path⟩).line?).getD []

theorem dumped_fold (hd : d.length ≤ maxAlloc) (cfg : DumpCfg) : ∀ (F : Forest) {isRoot : Bool} {path : List BoxType} {ctx : Ctx} {pos total : Nat}
    (parent : Option BoxInfo) (s : DumpSt), F.WF d isRoot path ctx pos total → Listed d cfg F →
    (F.visited (dumpOpens d cfg) (fun _ => ()) parent path ()).foldl (fun s x => dumped d cfg x.2 s) s =
      ⟨s.lines ++ (F.boxes parent path).map (fun x => lineOf d cfg x.2.1 x.2.2), s.stop⟩ ∧
    ∀ x ∈ F.boxes parent path, DumpLine d cfg x.2.1 x.2.2 (lineOf d cfg x.2.1 x.2.2) := by
  intro F
  induction F with
  | nil => intros; simp [Forest.visited, Forest.boxes]
  | leaf bi rest ih =>
    intro isRoot path ctx pos total parent s hwf hu
    obtain ⟨hp, hwf⟩ := hwf
    obtain ⟨hl, hu⟩ := hu
    obtain ⟨-, hb⟩ := placed_header hd hp
    obtain ⟨line, e⟩ := acts_of_listed.leaf_step hd cfg (x := ⟨(), bi, path ++ [bi.type]⟩) hb (by have := hp.inFile; rw [hp.offset]; exact this) hp.whole hl
    have hr := dumpStep_right hd cfg (x := ⟨(), bi, path ++ [bi.type]⟩) hb
    have el : lineOf d cfg (path ++ [bi.type]) bi = line := by unfold lineOf; rw [e]; rfl
    have es : dumped d cfg ⟨(), bi, path ++ [bi.type]⟩ s = ⟨s.lines ++ [line], s.stop⟩ := by unfold dumped; rw [e]; rfl
    rw [e] at hr
    simp only [Forest.visited, Forest.boxes, List.foldl_cons, List.map_cons, List.forall_mem_cons]
    rw [es, el]
    obtain ⟨h1, h2⟩ := ih parent ⟨s.lines ++ [line], s.stop⟩ hwf hu
    rw [h1]
    exact ⟨by simp, hr, h2⟩
  | node bi n kids rest ihk ih =>
    intro isRoot path ctx pos total parent s hwf hu
    obtain ⟨hp, hn, hwk, hwf⟩ := hwf
    obtain ⟨hl, huk, hu⟩ := hu
    obtain ⟨-, hb⟩ := placed_header hd hp
    have hr := dumpStep_right hd cfg (x := ⟨(), bi, path ++ [bi.type]⟩) hb
    have key : ∃ line, DumpLine d cfg (path ++ [bi.type]) bi line ∧ lineOf d cfg (path ++ [bi.type]) bi = line ∧
        dumped d cfg ⟨(), bi, path ++ [bi.type]⟩ s = ⟨s.lines ++ [line], s.stop⟩ ∧ (dumpOpens d cfg ⟨(), bi, path ++ [bi.type]⟩ = false → kids = .nil) := by
      rcases node_step hd cfg (x := ⟨(), bi, path ++ [bi.type]⟩) hb hn with ⟨line, e⟩ | ⟨⟨line, e⟩, hpass⟩
      · rw [e] at hr
        refine ⟨line, hr.1, by unfold lineOf; rw [e]; rfl, by unfold dumped; rw [e]; rfl, ?_⟩
        unfold dumpOpens
        rw [e]
        intro h; cases h
      · rw [e] at hr
        exact ⟨line, hr, by unfold lineOf; rw [e]; rfl, by unfold dumped; rw [e]; rfl, fun _ => hl hpass⟩
    obtain ⟨line, hline, el, es, hkids⟩ := key
    simp only [Forest.visited, Forest.boxes, List.foldl_cons, List.foldl_append, List.map_cons, List.map_append, List.forall_mem_cons,
      List.forall_mem_append]
    rw [es, el]
    obtain ⟨k1, k2⟩ := ihk (some bi) ⟨s.lines ++ [line], s.stop⟩ hwk huk
    have hk : (if dumpOpens d cfg ⟨(), bi, path ++ [bi.type]⟩ = true then kids.visited (dumpOpens d cfg) (fun _ => ()) (some bi) (path ++ [bi.type]) () else []) =
        kids.visited (dumpOpens d cfg) (fun _ => ()) (some bi) (path ++ [bi.type]) () := by
      split
      · rfl
      · next hg =>
        rw [hkids (eq_false_of_ne_true hg)]
        rfl
    rw [hk, k1]
    obtain ⟨h1, h2⟩ := ih parent ⟨s.lines ++ [line] ++ (kids.boxes (some bi) (path ++ [bi.type])).map (fun x => lineOf d cfg x.2.1 x.2.2), s.stop⟩ hwf hu
    rw [h1]
    exact ⟨by simp, hline, k2, h2⟩

/-- **C61**, well-formed files — `mp4tool dump` prints one line for every box, in the order of the file, and each is as `DumpLine` says: indentation,
name, offset, size, and the contents, or the remark that they are not shown. -/
theorem dump_lists (hd : d.length ≤ 2 ^ 48) (cfg : DumpCfg) (F : Forest) (hF : F.WF d true [] {} 0 0) (hl : Listed d cfg F) (fuel : Nat)
    (hf : F.count < fuel) : ∃ line : List BoxType → BoxInfo → Text,
      dump d cfg fuel = (.ok (), (F.boxes none []).map (fun x => line x.2.1 x.2.2)) ∧
      ∀ x ∈ F.boxes none [], DumpLine d cfg x.2.1 x.2.2 (line x.2.1 x.2.2) := by
  obtain ⟨st, e, hs⟩ := visit_file (show d.length ≤ maxAlloc from hd) hF (acts_of_listed hd cfg F hF hl) hf 0 ⟨[], false⟩ []
  obtain ⟨h1, h2⟩ := dumped_fold (show d.length ≤ maxAlloc from hd) cfg F none ⟨[], false⟩ hF hl
  refine ⟨lineOf d cfg, ?_, h2⟩
  unfold dump
  rw [e]
  simp only
  rw [hs, h1]
  rfl

/-- **C61** fails: eight bytes that announce a box of four make `mp4tool dump -a` panic, … -/
theorem dump_panics : dump [0, 0, 0, 4, 0x78, 0x78, 0x78, 0x78] ⟨[], true, false, false, 180, fun _ => false⟩ 2 = (.panic, []) := by
  decide +kernel

/-- … and so do sixteen that announce one of 2^56 bytes. -/
theorem dump_panics_large :
    dump [0, 0, 0, 1, 0x78, 0x78, 0x78, 0x78, 1, 0, 0, 0, 0, 0, 0, 0] ⟨[], true, false, false, 180, fun _ => false⟩ 2 = (.panic, []) := by
  decide +kernel

/-! ## Files that meet the conditions -/

/-- `-full xxxx -offset -hex` on the file of `Verif.Props.ToolExtract` -/
def dumpCfg1 : DumpCfg := ⟨[[0x78, 0x78, 0x78, 0x78]], false, true, true, 180, fun _ => false⟩

theorem toolFile_listed (cfg : DumpCfg) : Listed toolFile cfg toolForest := by
  refine ⟨?_, ⟨.inl ⟨_, .inr ⟨by decide +kernel, badVersion_of (by decide +kernel), rfl⟩⟩, .inl ⟨_, .inl ⟨by decide +kernel, rfl⟩⟩, trivial⟩,
    .inl ⟨_, .inl ⟨by decide +kernel, rfl⟩⟩, trivial⟩
  rintro ⟨-, h | h⟩
  · exact absurd ((bulky_iff _).2 h) (by decide)
  · exact absurd h.1 (by decide)

example : dump toolFile dumpCfg1 5 = (.ok (), [lit "[moov] Offset=0x0 Size=0x1c",
    lit "  [mvhd] Offset=0x8 Size=0xc (unsupported box version) Data=[...] (use \"-full mvhd\" to show all)",
    lit "  [xxxx] (unsupported box type) Offset=0x14 Size=0x8 Data=[]",
    lit "[xxxx] (unsupported box type) Offset=0x1c Size=0x9 Data=[0x07]"]) := by decide +kernel

example : ∃ line : List BoxType → BoxInfo → Text, dump toolFile dumpCfg1 5 = (.ok (), (toolForest.boxes none []).map (fun x => line x.2.1 x.2.2)) ∧
    ∀ x ∈ toolForest.boxes none [], DumpLine toolFile dumpCfg1 x.2.1 x.2.2 (line x.2.1 x.2.2) :=
  dump_lists (by decide) dumpCfg1 toolForest toolFile_wf (toolFile_listed _) 5 (by decide)

/-- contents that fit, … -/
example : dump ([0, 0, 0, 16, 0x6d, 0x66, 0x68, 0x64, 0, 0, 0, 0, 0, 0, 0, 7]) ⟨[], false, false, false, 80, fun _ => false⟩ 5 =
    (.ok (), [lit "[mfhd] Size=16 Version=0 Flags=0x000000 SequenceNumber=7"]) := by decide +kernel

/-- … and contents that do not -/
example : dump ([0, 0, 0, 16, 0x6d, 0x66, 0x68, 0x64, 0, 0, 0, 0, 0, 0, 0, 7]) ⟨[], false, false, false, 40, fun _ => false⟩ 5 =
    (.ok (), [lit "[mfhd] Size=16 ... (use \"-full mfhd\" to show all)"]) := by decide +kernel

end Mp4.Props
