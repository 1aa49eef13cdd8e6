import Verif.Props.Probe
import Verif.Model.Tool
import Verif.Spec.Tool
import Verif.Props.IsoMore
import Verif.Props.Extract
import Verif.Props.ProbeSafe
import Verif.Props.ToolExtract

/-!
# C59: `mp4tool psshdump`
-/

namespace Mp4.Props

open Mp4 Mp4.Tool Mp4.Spec

variable {d : Bytes}

/-! ## Base 64 -/

theorem sextet_char : ∀ n, n < 64 → sextet (base64Char n) = some n ∧ base64Char n ≠ 61 := by decide

theorem byte_ofNat (b : BitVec 8) {n : Nat} (h : n = b.toNat) : BitVec.ofNat 8 n = b := by
  subst h
  simp

/-- **C59**, Base 64 — The text gives the bytes back. -/
theorem base64_decodes (b : Bytes) : unbase64 (base64 b) = some b := by
  induction b using base64.induct with
  | case1 => rfl
  | case2 a =>
    have ha := a.isLt
    obtain ⟨h1, -⟩ := sextet_char (a.toNat / 4) (by omega)
    obtain ⟨h2, -⟩ := sextet_char (a.toNat % 4 * 16) (by omega)
    unfold base64 unbase64
    simp only [h1, h2]
    rw [if_pos trivial, if_pos ⟨trivial, trivial, by omega⟩, byte_ofNat a (by omega)]
  | case3 a b =>
    have ha := a.isLt
    have hb := b.isLt
    obtain ⟨h1, -⟩ := sextet_char (a.toNat / 4) (by omega)
    obtain ⟨h2, -⟩ := sextet_char (a.toNat % 4 * 16 + b.toNat / 16) (by omega)
    obtain ⟨h3, n3⟩ := sextet_char (b.toNat % 16 * 4) (by omega)
    unfold base64 unbase64
    simp only [h1, h2, h3]
    rw [if_neg n3, if_pos trivial, if_pos ⟨trivial, by omega⟩, byte_ofNat a (by omega), byte_ofNat b (by omega)]
  | case4 a b c l ih =>
    have ha := a.isLt
    have hb := b.isLt
    have hc := c.isLt
    obtain ⟨h1, -⟩ := sextet_char (a.toNat / 4) (by omega)
    obtain ⟨h2, -⟩ := sextet_char (a.toNat % 4 * 16 + b.toNat / 16) (by omega)
    obtain ⟨h3, n3⟩ := sextet_char (b.toNat % 16 * 4 + c.toNat / 64) (by omega)
    obtain ⟨h4, n4⟩ := sextet_char (c.toNat % 64) (by omega)
    unfold base64 unbase64
    simp only [h1, h2, h3, h4]
    rw [if_neg n3, if_neg n4, ih, byte_ofNat a (by omega), byte_ofNat b (by omega), byte_ofNat c (by omega)]
    rfl

/-! ## Texts -/

theorem hexPad_two : ∀ n, n < 256 → Str.hexPad 2 n = [hexChar (n / 16), hexChar (n % 16)] := by decide +kernel

theorem hexPad_byte (b : BitVec 8) : Str.hexPad 2 b.toNat = hexText [b] := by
  rw [hexPad_two _ b.isLt]
  rfl

theorem sysid_form {s : Bytes} (h : s.length = 16) : sysidText 0 (s.map (·.toNat)) = uuidForm s := by
  match s, h with
  | [a0, a1, a2, a3, a4, a5, a6, a7, a8, a9, a10, a11, a12, a13, a14, a15], _ =>
    simp [sysidText, hexPad_byte, uuidForm, hexText]

/-! ## Decoding -/

theorem bd_pssh : ∀ bd ∈ Cat.allDefs, bd.goName = "Pssh" → bd = Cat.bdPssh := by
  unfold Cat.allDefs
  simp only [List.forall_mem_cons]
  repeat' apply And.intro
  all_goals first
    | (intro _; rfl)
    | (intro _; trivial)
    | (intro h; exact absurd h (by decide))
    | (intro x hx; exact absurd hx (by simp))

theorem std_pssh (ctx : Ctx) : BoxMap.std.getBoxDef tPssh ctx = some Cat.bdPssh := by
  obtain ⟨bd, h1, h2⟩ := lookup_single (name := "Pssh") (m := BoxMap.std) (t := tPssh) (by decide +kernel) ctx
  rw [h1, bd_pssh bd (std_mem h1) h2]

/-- an encoded box in a file can be decoded -/
theorem encodes_any {bd : BoxDef} {ctx : Ctx} {sv : SV} {bits : List Bool} (he : Encodes bd ctx sv bits) {t : BoxType}
    (ht : BoxMap.std.getBoxDef t ctx = some bd) {pos n : Nat} (hd : d.length ≤ 2 ^ 48) (hin : pos + n ≤ d.length)
    (hb : bytesBits ((d.drop pos).take n) = bits) :
    BoxMap.std.unmarshalAny d t n ctx pos = (.ok (⟨bd, t, sv⟩, n), pos + n) := by
  obtain ⟨p, h1, -, h2⟩ := he
  have hp : p = (d.drop pos).take n := bytesBits_inj (h1.trans hb.symm)
  have hl : p.length = n := by rw [hp]; simp; omega
  have hs : d.take pos ++ p ++ d.drop (pos + n) = d := by
    rw [hp, ← List.drop_drop, List.append_assoc, List.take_append_drop, List.take_append_drop]
  have hpos : (d.take pos).length = pos := by simp; omega
  have := h2 (d.take pos) (d.drop (pos + n)) (by rw [hs]; omega)
  rw [hs, hpos, hl] at this
  unfold BoxMap.unmarshalAny BoxMap.new
  rw [ht]
  simp only
  rw [this]

/-- The box has these contents. -/
def PsshBox.In (x : PsshBox) (d : Bytes) (bi : BoxInfo) : Prop :=
  bytesBits ((d.drop (bi.offset + bi.headerSize)).take (bi.size - bi.headerSize)) = x.bits

/-- the value decoded -/
def PsshBox.sv (x : PsshBox) : SV :=
  [fullBox x.version x.f0 x.f1 x.f2, ("SystemID", .arr (goBytes x.system)), ("KIDCount", .uint x.kids.length),
    ("KIDs", .slice (x.kids.map fun x => .struct [("KID", .arr (goBytes x))])),
    ("DataSize", .int x.data.length), ("Data", .slice (goBytes x.data))]

theorem pssh_encodes (x : PsshBox) (hx : x.WF) (ctx : Ctx) : Encodes Cat.bdPssh ctx x.sv x.bits := by
  obtain ⟨v, f0, f1, f2, system, kids, data⟩ := x
  rcases hx.version with h | h
  · simp only at h
    subst h
    have := hx.none rfl
    simp only at this
    subst this
    have := pssh_v0 f0 f1 f2 system data hx.flags hx.system hx.data ctx
    simpa [PsshBox.sv, PsshBox.bits] using this
  · simp only at h
    subst h
    have := pssh_v1 f0 f1 f2 system data kids hx.flags hx.system hx.kids hx.many hx.data ctx
    simpa [PsshBox.sv, PsshBox.bits] using this

/-- What the entry says about the box. -/
structure Shows (d : Bytes) (i : Nat) (bi : BoxInfo) (x : PsshBox) (e : PsshEntry) : Prop where
  index : e.index = i
  offset : e.offset = bi.offset
  size : e.size = bi.size
  version : e.version = x.version
  flags : e.flags = hexText [BitVec.ofNat 8 x.f0, BitVec.ofNat 8 x.f1, BitVec.ofNat 8 x.f2]
  system : e.systemId = uuidForm x.system
  data : e.dataSize = x.data.length
  raw : unbase64 e.base64 = some (rawBytes d bi)

/-- One entry for each box, numbered from `i` on. -/
def Listing (d : Bytes) : Nat → List BoxInfo → List PsshEntry → Prop
  | _, [], [] => True
  | i, bi :: bis, e :: es => (∃ x : PsshBox, x.WF ∧ x.In d bi ∧ Shows d i bi x e) ∧ Listing d (i + 1) bis es
  | _, _, _ => False

theorem readFullP_ok {n pos : Nat} (h : pos + n ≤ d.length) : readFullP d n pos = (.ok ((d.drop pos).take n), pos + n) := by
  have hl : ((d.drop pos).take n).length = n := by simp; omega
  unfold readFullP
  simp only
  rw [if_pos hl]

theorem seekStartP_ok {n : Nat} (h : n < 2 ^ 63) (pos : Nat) : seekStartP n pos = (.ok n, n) := by
  unfold seekStartP
  rw [Nat.mod_eq_of_lt (by simp only [U64]; omega), if_neg (by omega)]

/-- the texts printed about a box of known contents -/
theorem psshOne_shows (hd : d.length ≤ 2 ^ 48) (i : Nat) {bi : BoxInfo} (hin : bi.offset + bi.size ≤ d.length) {x : PsshBox} (hx : x.WF) (pos : Nat) :
    ∃ e, psshOne d i bi ⟨Cat.bdPssh, tPssh, x.sv⟩ pos = (.ok e, bi.offset + bi.size) ∧ Shows d i bi x e := by
  refine ⟨⟨i, bi.offset, bi.size, x.sv.version, (flagBytes x.sv).flatMap (Str.hexPad 2), sysidText 0 (x.sv.byteArr "SystemID"),
    x.sv.int "DataSize", base64 (rawBytes d bi)⟩, ?_, ?_⟩
  · unfold psshOne
    have ha : BoxVal.assert ⟨Cat.bdPssh, tPssh, x.sv⟩ "Pssh" = some x.sv := by
      unfold BoxVal.assert
      rw [if_pos (by rfl)]
    simp only [ha]
    rw [M.bind_ok (seekStartP_ok (by omega) pos), if_neg (by simp only [maxAlloc]; omega), M.bind_ok (readFullP_ok hin)]
    rfl
  · have hf := hx.flags
    refine ⟨rfl, rfl, rfl, ?_, ?_, ?_, ?_, base64_decodes _⟩
    · simp [PsshBox.sv, SV.version, SV.full, SV.get, fullBox, SV.uint]
    · have e : flagBytes x.sv = [x.f0, x.f1, x.f2] := by
        simp [PsshBox.sv, flagBytes, SV.full, SV.get, fullBox, SV.byteArr]
      simp only [e, List.flatMap_cons, List.flatMap_nil, List.append_nil]
      rw [hexPad_two _ hf.1, hexPad_two _ hf.2.1, hexPad_two _ hf.2.2]
      simp [hexText, Nat.mod_eq_of_lt hf.1, Nat.mod_eq_of_lt hf.2.1, Nat.mod_eq_of_lt hf.2.2]
    · have e : x.sv.byteArr "SystemID" = x.system.map (·.toNat) := by
        simp [PsshBox.sv, SV.byteArr, SV.get, fullBox, goBytes]
      simp only [e]
      exact sysid_form hx.system
    · simp [PsshBox.sv, SV.int, SV.get, fullBox]

theorem psshLoop_lists (hd : d.length ≤ 2 ^ 48) : ∀ (l : List (BoxInfo × PsshBox)) (i pos : Nat),
    (∀ y ∈ l, y.1.offset + y.1.size ≤ d.length ∧ y.2.WF ∧ y.2.In d y.1) →
    ∃ es p, psshLoop d i (l.map fun y => (y.1, ⟨Cat.bdPssh, tPssh, y.2.sv⟩)) pos = (.ok es, p) ∧ Listing d i (l.map (·.1)) es
  | [], i, pos, _ => ⟨[], pos, rfl, trivial⟩
  | (bi, x) :: l, i, pos, h => by
    obtain ⟨h1, h2, h3⟩ := h (bi, x) List.mem_cons_self
    obtain ⟨e, he, hs⟩ := psshOne_shows hd i h1 h2 pos
    obtain ⟨es, p, hes, hl⟩ := psshLoop_lists hd l (i + 1) (bi.offset + bi.size) (fun y hy => h y (List.mem_cons_of_mem _ hy))
    refine ⟨e :: es, p, ?_, ⟨x, h2, h3, hs⟩, hl⟩
    rw [List.map_cons, psshLoop, M.bind_ok he, M.bind_ok hes]
    rfl

theorem psshPaths_plain : ∀ q ∈ psshPaths, ∀ t ∈ q, t ≠ ⟨0, 0, 0, 0⟩ := by decide

theorem asked_pssh {path : List BoxType} (h : Asked psshPaths path) : path = [tMoov, tPssh] ∨ path = [tMoof, tPssh] := by
  obtain ⟨-, q, hq, hp⟩ := h
  have := (hasPattern_exact (psshPaths_plain q hq)).1 hp
  subst this
  rcases List.mem_cons.1 hq with h | h
  · exact Or.inl h
  · exact Or.inr (List.mem_singleton.1 h)

theorem askedBelow_pssh {path : List BoxType} (hne : path ≠ []) (h : AskedBelow psshPaths path) : path = [tMoov] ∨ path = [tMoof] := by
  obtain ⟨-, a, b, hq, hb, hp⟩ := h
  have := (hasPattern_exact (fun t ht => psshPaths_plain _ hq t (List.mem_append_left _ ht))).1 hp
  subst this
  have key : ∀ t, a ++ b = [t, tPssh] → a = [t] := by
    intro t e
    match a, e with
    | [], _ => exact absurd rfl hne
    | [u], e =>
      simp only [List.cons_append, List.cons.injEq] at e
      rw [e.1]
    | u :: v :: w, e =>
      simp only [List.cons_append, List.cons.injEq, List.append_eq_nil_iff] at e
      exact absurd e.2.2.2 hb
  rcases List.mem_cons.1 hq with h | h
  · exact Or.inl (key _ h)
  · exact Or.inr (key _ (List.mem_singleton.1 h))

theorem asked_type {b : BoxInfo} {path : List BoxType} (hl : path.getLast? = some b.type) (h : Asked psshPaths path) : b.type = tPssh := by
  rcases asked_pssh h with rfl | rfl
  · exact (Option.some.inj hl).symm
  · exact (Option.some.inj hl).symm

theorem boxes_placed (hd : d.length ≤ maxAlloc) : ∀ (F : Forest) {isRoot : Bool} {parent : Option BoxInfo} {path : List BoxType} {ctx : Ctx} {pos total : Nat},
    F.WF d isRoot path ctx pos total → ∀ x ∈ F.boxes parent path,
      x.2.2.offset + x.2.2.size ≤ d.length ∧ x.2.2.headerSize ≤ x.2.2.size ∧ x.2.1.getLast? = some x.2.2.type
  | .nil, _, _, _, _, _, _, _, x, hx => by cases hx
  | .leaf bi rest, _, _, _, _, _, _, ⟨hp, h⟩, x, hx => by
    rcases List.mem_cons.1 hx with rfl | hx
    · exact ⟨by have := hp.inFile; rw [hp.offset]; exact this, hp.whole, by simp⟩
    · exact boxes_placed hd rest h x hx
  | .node bi n kids rest, _, _, _, _, _, _, ⟨hp, _, hk, h⟩, x, hx => by
    rcases List.mem_cons.1 hx with rfl | hx
    · exact ⟨by have := hp.inFile; rw [hp.offset]; exact this, hp.whole, by simp⟩
    · rcases List.mem_append.1 hx with hx | hx
      · exact boxes_placed hd kids hk x hx
      · exact boxes_placed hd rest h x hx

/-- **C59**, well-formed files — `mp4tool psshdump` prints one entry for each `pssh` box in a `moov` or `moof` box of the root, in the
order of the file: its number, offset and size, its version, flags, system identifier and size of the data, and the Base 64 form of the bytes of
the box.

The boxes are asked to be laid out as ISO/IEC 23001-7 says, and `moov` and `moof` to contain boxes. -/
theorem psshdump_lists (hd : d.length ≤ 2 ^ 48) (F : Forest) (hF : F.WF d true [] {} 0 0)
    (hleaf : ∀ x ∈ leaves [] F, x.1 ≠ [tMoov] ∧ x.1 ≠ [tMoof])
    (hp : ∀ bi ∈ askedBoxes psshPaths F, ∃ x : PsshBox, x.WF ∧ x.In d bi) (fuel : Nat) (hf : F.count < fuel) (pos : Nat) :
    ∃ es p, psshdump BoxMap.std d fuel pos = (.ok es, p) ∧ Listing d 0 (askedBoxes psshPaths F) es := by
  have he := extract_exact_partial hd F hF psshPaths (by decide) (by
    intro x hx
    intro ha
    rcases askedBelow_pssh (probe_ok.leaves_ne F [] x hx) ha with h | h
    · exact (hleaf x hx).1 h
    · exact (hleaf x hx).2 h) fuel hf pos
  have hb : ∀ bi ∈ askedBoxes psshPaths F, bi.type = tPssh ∧ bi.offset + bi.size ≤ d.length ∧ bi.headerSize ≤ bi.size := by
    intro bi hbi
    obtain ⟨x, hx, rfl⟩ := List.mem_map.1 hbi
    obtain ⟨hx, ha⟩ := List.mem_filter.1 hx
    obtain ⟨h1, h2, h3⟩ := boxes_placed hd F hF x hx
    exact ⟨asked_type h3 (of_decide_eq_true ha), h1, h2⟩
  generalize askedBoxes psshPaths F = bis at he hb hp ⊢
  have hl : ∃ l : List (BoxInfo × PsshBox), l.map (·.1) = bis ∧ ∀ y ∈ l, y.2.WF ∧ y.2.In d y.1 := by
    clear he hb
    induction bis with
    | nil => exact ⟨[], rfl, by simp⟩
    | cons b bis ih =>
      obtain ⟨x, hx⟩ := hp b List.mem_cons_self
      obtain ⟨l, h1, h2⟩ := ih (fun bi h => hp bi (List.mem_cons_of_mem _ h))
      refine ⟨(b, x) :: l, by simp [h1], ?_⟩
      intro y hy
      rcases List.mem_cons.1 hy with rfl | hy
      · exact hx
      · exact h2 y hy
  obtain ⟨l, rfl, h2⟩ := hl
  have h3 : ∀ y ∈ l, y.1.type = tPssh ∧ y.1.offset + y.1.size ≤ d.length ∧ y.1.headerSize ≤ y.1.size :=
    fun y hy => hb y.1 (List.mem_map.2 ⟨y, hy, rfl⟩)
  cases hr : extractBoxes BoxMap.std d fuel none psshPaths pos with
  | mk o p1 =>
    rw [hr] at he
    simp only at he
    subst he
    obtain ⟨p2, hdec⟩ := decodeAll_run (d := d) (ctx := {}) (l := l.map fun y => (y.1, (⟨Cat.bdPssh, tPssh, y.2.sv⟩ : BoxVal))) (by
      intro z hz p0
      obtain ⟨y, hy, rfl⟩ := List.mem_map.1 hz
      obtain ⟨t1, t2, t3⟩ := h3 y hy
      obtain ⟨t4, t5⟩ := h2 y hy
      have hoff : y.1.offset + y.1.headerSize ≤ d.length := by omega
      have hs : sub64 y.1.size y.1.headerSize = y.1.size - y.1.headerSize := by
        unfold sub64
        simp only [U64] at *
        omega
      refine ⟨y.1.size - y.1.headerSize, y.1.offset + y.1.headerSize + (y.1.size - y.1.headerSize), ?_⟩
      rw [readPayloadP_ok (show d.length ≤ maxAlloc from hd) (bi := { y.1 with ctx := {} }) hoff p0]
      simp only [hs, t1]
      exact encodes_any (pssh_encodes y.2 t4 {}) (std_pssh {}) hd (by omega) t5) p1
    rw [List.map_map] at hdec
    obtain ⟨es, p, hes, hlist⟩ := psshLoop_lists hd l 0 p2 (fun y hy => ⟨(h3 y hy).2.1, (h2 y hy).1, (h2 y hy).2⟩)
    refine ⟨es, p, ?_, hlist⟩
    unfold psshdump
    have hw : extractBoxesWithPayload BoxMap.std d fuel none psshPaths pos = (.ok (l.map fun y => (y.1, ⟨Cat.bdPssh, tPssh, y.2.sv⟩)), p2) := by
      unfold extractBoxesWithPayload
      rw [M.bind_ok hr]
      exact hdec
    rw [M.bind_ok hw]
    exact hes

/-! ## Any file -/

/-- One entry for each box, numbered from `i` on, with its place and its bytes; all the boxes are in the file as a whole. -/
def Numbered (d : Bytes) : Nat → List BoxInfo → List PsshEntry → Prop
  | _, [], [] => True
  | i, bi :: bis, e :: es => (e.index = i ∧ e.offset = bi.offset ∧ e.size = bi.size ∧ bi.offset + bi.size ≤ d.length ∧
      unbase64 e.base64 = some (rawBytes d bi)) ∧ Numbered d (i + 1) bis es
  | _, _, _ => False

theorem assert_pssh {ctx : Ctx} {v : BoxVal} (h : BoxMap.std.getBoxDef tPssh ctx = some v.bd) : ∃ sv, v.assert "Pssh" = some sv := by
  obtain ⟨f, hf⟩ := assert_ok (t := tPssh) (name := "Pssh") (fun sv => sv) (by decide +kernel) h
  cases hv : v.assert "Pssh" with
  | none => rw [hv] at hf; cases hf
  | some sv => exact ⟨sv, rfl⟩

theorem psshOne_any (hd : d.length ≤ 2 ^ 48) (i : Nat) {bi : BoxInfo} (ho : bi.offset ≤ d.length) {v : BoxVal} {sv : SV} (hv : v.assert "Pssh" = some sv) (pos : Nat) :
    ((psshOne d i bi v pos).1 = .panic → 2 ^ 48 < bi.size) ∧ ∀ e p, psshOne d i bi v pos = (.ok e, p) →
      e.index = i ∧ e.offset = bi.offset ∧ e.size = bi.size ∧ bi.offset + bi.size ≤ d.length ∧ unbase64 e.base64 = some (rawBytes d bi) := by
  unfold psshOne
  simp only [hv]
  rw [M.bind_ok (seekStartP_ok (by omega) pos)]
  by_cases hs : maxAlloc < bi.size
  · rw [if_pos hs]
    exact ⟨fun _ => hs, by intro e p h; cases h⟩
  rw [if_neg hs]
  by_cases hin : bi.offset + bi.size ≤ d.length
  · rw [M.bind_ok (readFullP_ok hin)]
    refine ⟨by simp [M.pure_run], ?_⟩
    intro e p h
    cases h
    exact ⟨rfl, rfl, rfl, hin, base64_decodes _⟩
  · have hl : ((d.drop bi.offset).take bi.size).length ≠ bi.size := by simp; omega
    have hr : ∃ er q, readFullP d bi.size bi.offset = (.err er, q) := by
      unfold readFullP
      simp only
      rw [if_neg hl]
      split <;> exact ⟨_, _, rfl⟩
    obtain ⟨er, q, hr⟩ := hr
    rw [M.bind_err hr]
    exact ⟨by simp, by intro e p h; cases h⟩

theorem psshLoop_any (hd : d.length ≤ 2 ^ 48) : ∀ (l : List (BoxInfo × BoxVal)) (i pos : Nat),
    (∀ y ∈ l, y.1.offset ≤ d.length ∧ ∃ sv, y.2.assert "Pssh" = some sv) →
    ((psshLoop d i l pos).1 = .panic → ∃ y ∈ l, 2 ^ 48 < y.1.size) ∧
    ∀ es p, psshLoop d i l pos = (.ok es, p) → Numbered d i (l.map (·.1)) es
  | [], i, pos, _ => ⟨by simp [psshLoop, M.pure_run], by intro es p h; cases h; trivial⟩
  | (bi, v) :: l, i, pos, h => by
    obtain ⟨ho, sv, hv⟩ := h (bi, v) List.mem_cons_self
    obtain ⟨h1, h2⟩ := psshOne_any hd i ho hv pos
    rw [psshLoop]
    cases hr : psshOne d i bi v pos with
    | mk o p1 =>
      rw [hr] at h1
      cases o with
      | panic => rw [M.bind_panic hr]; exact ⟨fun _ => ⟨_, List.mem_cons_self, h1 rfl⟩, by intro es p h; cases h⟩
      | err e => rw [M.bind_err hr]; exact ⟨by simp, by intro es p h; cases h⟩
      | hang => rw [M.bind_hang hr]; exact ⟨by simp, by intro es p h; cases h⟩
      | ok e =>
        rw [M.bind_ok hr]
        obtain ⟨h3, h4⟩ := psshLoop_any hd l (i + 1) p1 (fun y hy => h y (List.mem_cons_of_mem _ hy))
        cases hr2 : psshLoop d (i + 1) l p1 with
        | mk o2 p2 =>
          rw [hr2] at h3
          cases o2 with
          | panic =>
            rw [M.bind_panic hr2]
            exact ⟨fun _ => by obtain ⟨y, hy, hs⟩ := h3 rfl; exact ⟨y, List.mem_cons_of_mem _ hy, hs⟩, by intro es p h; cases h⟩
          | err e => rw [M.bind_err hr2]; exact ⟨by simp, by intro es p h; cases h⟩
          | hang => rw [M.bind_hang hr2]; exact ⟨by simp, by intro es p h; cases h⟩
          | ok es =>
            rw [M.bind_ok hr2]
            refine ⟨by simp [M.pure_run], ?_⟩
            intro es' p h
            cases h
            exact ⟨h2 e p1 hr, h4 es p2 hr2⟩

/-- **C59**, any file — `mp4tool psshdump` panics only if a `pssh` box that it gets to announces more than 2^48 bytes.  When it succeeds, it has printed an
entry for each of a list of boxes, numbered from 0 on; to each of them one gets from the root by `moov/pssh` or `moof/pssh`, it is in the file as a whole,
and its offset, its size and (in Base 64) its bytes are printed. -/
theorem psshdump_sound (hd : d.length ≤ 2 ^ 48) (fuel pos : Nat) :
    ((psshdump BoxMap.std d fuel pos).1 = .panic →
      ∃ bi, (Leads d none [tMoov, tPssh] bi ∨ Leads d none [tMoof, tPssh] bi) ∧ 2 ^ 48 < bi.size) ∧
    ∀ es p, psshdump BoxMap.std d fuel pos = (.ok es, p) → ∃ bis, Numbered d 0 bis es ∧
      ∀ bi ∈ bis, Leads d none [tMoov, tPssh] bi ∨ Leads d none [tMoof, tPssh] bi := by
  obtain ⟨h1, h2⟩ := extract_sound hd fuel psshPaths pos
  unfold psshdump extractBoxesWithPayload
  cases hr : extractBoxes BoxMap.std d fuel none psshPaths pos with
  | mk o p1 =>
    rw [hr] at h1
    cases o with
    | panic => exact absurd rfl h1
    | err e => rw [M.bind_err (M.bind_err hr)]; exact ⟨by simp, by intro l p h; cases h⟩
    | hang => rw [M.bind_hang (M.bind_hang hr)]; exact ⟨by simp, by intro l p h; cases h⟩
    | ok v =>
      obtain ⟨bis, par⟩ := v
      obtain ⟨rfl, h3⟩ := h2 _ _ _ hr
      have h5 : ∀ b ∈ bis, Leads d none [tMoov, tPssh] b ∨ Leads d none [tMoof, tPssh] b := by
        intro b hb
        obtain ⟨path, hl, ha⟩ := h3 b hb
        rcases asked_pssh ha with rfl | rfl
        · exact Or.inl hl
        · exact Or.inr hl
      have hreal : ∀ b ∈ bis, Real d b := fun b hb => (h5 b hb).elim leads_real leads_real
      have htype : ∀ b ∈ bis, b.type = tPssh := fun b hb =>
        (h5 b hb).elim (fun h => (Option.some.inj (leads_type h)).symm) (fun h => (Option.some.inj (leads_type h)).symm)
      obtain ⟨h6, h7⟩ := decodeAll_safe hd {} bis (fun b hb => (header_of_real hd (hreal b hb)).inside) p1
      cases hr2 : decodeAll BoxMap.std d {} bis p1 with
      | mk o2 p2 =>
        rw [hr2] at h6
        have hw : (extractBoxesWithPayload BoxMap.std d fuel none psshPaths) pos = (o2, p2) := by
          unfold extractBoxesWithPayload
          rw [M.bind_ok hr]
          exact hr2
        unfold extractBoxesWithPayload at hw
        cases o2 with
        | panic => exact absurd rfl h6
        | err e => rw [M.bind_err hw]; exact ⟨by simp, by intro l p h; cases h⟩
        | hang => rw [M.bind_hang hw]; exact ⟨by simp, by intro l p h; cases h⟩
        | ok l =>
          obtain ⟨rfl, h9⟩ := h7 l p2 hr2
          rw [M.bind_ok hw]
          obtain ⟨j1, j2⟩ := psshLoop_any hd l 0 p2 (by
            intro y hy
            have hy' : y.1 ∈ l.map (·.1) := List.mem_map.2 ⟨y, hy, rfl⟩
            have := (header_of_real hd (hreal _ hy')).inside
            refine ⟨by omega, ?_⟩
            have := (h9 y hy).1
            rw [htype _ hy'] at this
            exact assert_pssh this)
          refine ⟨?_, fun es p h => ⟨_, j2 es p h, h5⟩⟩
          intro hp
          obtain ⟨y, hy, hs⟩ := j1 hp
          exact ⟨y.1, h5 _ (List.mem_map.2 ⟨y, hy, rfl⟩), hs⟩

/-! ## Concrete files -/

/-- 56 bytes: `moov` (in the 64-bit form) announces 2^48 + 17 bytes and its child `pssh` 2^48 + 1; nothing but the contents of an empty
`pssh` box of version 0 follows. -/
def hugePssh : Bytes := [
  0, 0, 0, 1, 0x6d, 0x6f, 0x6f, 0x76, 0, 1, 0, 0, 0, 0, 0, 17,
  0, 0, 0, 1, 0x70, 0x73, 0x73, 0x68, 0, 1, 0, 0, 0, 0, 0, 1,
  0, 0, 0, 0, 0, 1, 2, 3, 4, 5, 6, 7, 8, 9, 10, 11, 12, 13, 14, 15, 0, 0, 0, 0]

/-- **C59**, the finding — The size of the buffer is the announced one, and not compared with the size of the file: 56 bytes make `mp4tool psshdump` panic. -/
theorem psshdump_panics : (match (psshdump BoxMap.std hugePssh 10 0).1 with | .panic => true | _ => false) = true := by decide +kernel

/-- `moov` with two `pssh` boxes, of version 0 with two bytes of data and of version 1 with one key identifier; and `moof` with another one. -/
def psshFile : Bytes :=
  [0, 0, 0, 94, 0x6d, 0x6f, 0x6f, 0x76] ++
  [0, 0, 0, 34, 0x70, 0x73, 0x73, 0x68, 0, 0, 0, 5,
    0xed, 0xef, 0x8b, 0xa9, 0x79, 0xd6, 0x4a, 0xce, 0xa3, 0xc8, 0x27, 0xdc, 0xd5, 0x1d, 0x21, 0xed, 0, 0, 0, 2, 0xab, 0xcd] ++
  [0, 0, 0, 52, 0x70, 0x73, 0x73, 0x68, 1, 0, 0, 0,
    0x10, 0x77, 0xef, 0xec, 0xc0, 0xb2, 0x4d, 0x02, 0xac, 0xe3, 0x3c, 0x1e, 0x52, 0xe2, 0xfb, 0x4b, 0, 0, 0, 1,
    1, 2, 3, 4, 5, 6, 7, 8, 9, 10, 11, 12, 13, 14, 15, 16, 0, 0, 0, 0] ++
  [0, 0, 0, 41, 0x6d, 0x6f, 0x6f, 0x66] ++
  [0, 0, 0, 33, 0x70, 0x73, 0x73, 0x68, 0, 0, 0, 0,
    0xed, 0xef, 0x8b, 0xa9, 0x79, 0xd6, 0x4a, 0xce, 0xa3, 0xc8, 0x27, 0xdc, 0xd5, 0x1d, 0x21, 0xed, 0, 0, 0, 1, 7]

/-- the boxes of `psshFile` -/
def psshForest : Forest :=
  .node ⟨0, 94, 8, tMoov, false, {}⟩ 0
    (.leaf ⟨8, 34, 8, tPssh, false, {}⟩ (.leaf ⟨42, 52, 8, tPssh, false, {}⟩ .nil))
    (.node ⟨94, 41, 8, tMoof, false, {}⟩ 0 (.leaf ⟨102, 33, 8, tPssh, false, {}⟩ .nil) .nil)

def widevine : Bytes := [0xed, 0xef, 0x8b, 0xa9, 0x79, 0xd6, 0x4a, 0xce, 0xa3, 0xc8, 0x27, 0xdc, 0xd5, 0x1d, 0x21, 0xed]
def common : Bytes := [0x10, 0x77, 0xef, 0xec, 0xc0, 0xb2, 0x4d, 0x02, 0xac, 0xe3, 0x3c, 0x1e, 0x52, 0xe2, 0xfb, 0x4b]

theorem psshFile_wf : psshForest.WF psshFile true [] {} 0 0 := by
  refine ⟨⟨rfl, by decide +kernel, by decide +kernel, by decide +kernel, .inl rfl, ownCtx_plain rfl (by decide) (by decide)⟩,
    payloadN_of (by decide +kernel), ⟨⟨rfl, by decide +kernel, by decide +kernel, by decide +kernel, .inr (by decide),
      ownCtx_plain rfl (by decide) (by decide)⟩, ⟨rfl, by decide +kernel, by decide +kernel, by decide +kernel, .inr (by decide),
      ownCtx_plain rfl (by decide) (by decide)⟩, .inl rfl⟩,
    ⟨⟨rfl, by decide +kernel, by decide +kernel, by decide +kernel, .inl rfl, ownCtx_plain rfl (by decide) (by decide)⟩,
      payloadN_of (by decide +kernel), ⟨⟨rfl, by decide +kernel, by decide +kernel, by decide +kernel, .inr (by decide),
        ownCtx_plain rfl (by decide) (by decide)⟩, .inl rfl⟩, by simp only [Forest.WF]; decide +kernel⟩⟩

theorem psshFile_contents : ∀ bi ∈ askedBoxes psshPaths psshForest, ∃ x : PsshBox, x.WF ∧ x.In psshFile bi := by
  have e : askedBoxes psshPaths psshForest =
    [⟨8, 34, 8, tPssh, false, {}⟩, ⟨42, 52, 8, tPssh, false, {}⟩, ⟨102, 33, 8, tPssh, false, {}⟩] := by decide +kernel
  rw [e]
  intro bi h
  rcases List.mem_cons.1 h with rfl | h
  · exact ⟨⟨0, 0, 0, 5, widevine, [], [0xab, 0xcd]⟩, ⟨by decide, by decide, by decide, by decide, by decide, by decide, by decide⟩,
      by unfold PsshBox.In; decide +kernel⟩
  rcases List.mem_cons.1 h with rfl | h
  · exact ⟨⟨1, 0, 0, 0, common, [[1, 2, 3, 4, 5, 6, 7, 8, 9, 10, 11, 12, 13, 14, 15, 16]], []⟩,
      ⟨by decide, by decide, by decide, by decide, by decide, by decide, by decide⟩, by unfold PsshBox.In; decide +kernel⟩
  rcases List.mem_cons.1 h with rfl | h
  · exact ⟨⟨0, 0, 0, 0, widevine, [], [7]⟩, ⟨by decide, by decide, by decide, by decide, by decide, by decide, by decide⟩,
      by unfold PsshBox.In; decide +kernel⟩
  · cases h

example : ∃ es p, psshdump BoxMap.std psshFile 10 0 = (.ok es, p) ∧ Listing psshFile 0 (askedBoxes psshPaths psshForest) es :=
  psshdump_lists (by decide +kernel) psshForest psshFile_wf (by decide +kernel) psshFile_contents 10 (by decide) 0

/-- what is printed about the first box -/
example : (match (psshdump BoxMap.std psshFile 10 0).1 with
    | .ok (e :: _) => decide (e = ⟨0, 8, 34, 0, Str.lit "000005", Str.lit "edef8ba9-79d6-4ace-a3c8-27dcd51d21ed", 2,
        Str.lit "AAAAInBzc2gAAAAF7e+LqXnWSs6jyCfc1R0h7QAAAAKrzQ=="⟩)
    | _ => false) = true := by decide +kernel

end Mp4.Props
