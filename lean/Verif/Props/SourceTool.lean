import Verif.Lemmas.SourceTool
import Verif.Props.Source
import Verif.Props.PsshBoxes
import Verif.Props.DumpBoxes
import Verif.Props.ExtractBoxes

/-!
# C91: the commands do not depend on how the file is delivered
-/

namespace Mp4.Props

open Mp4 Mp4.Spec Mp4.Src

variable {σ : Type} {k : Rdr σ} {d : Bytes} {place : σ → Nat} {failed : σ → Option Err}

/-- **C91**, traversal — From a source that does not fail, whatever the portions, `ReadBoxStructure` makes the same calls of the handler with the same results as from the bytes in
memory, and ends in the same way.  The handler may do with errors what it likes. -/
theorem source_traversal_whole {S P V : Type} (hs : Delivers k.src d place) (ha : ∀ n, 0 < n → 0 < k.ask n ∧ k.ask n ≤ n)
    (hf : k.fuel = d.length + 2) (m : BoxMap) (h : Handler S P V) (hh : ∀ x, WholeData (h x)) (fuel : Nat) (p : P) (t : σ)
    (user : S) (log : List (Ev V)) :
    let s := Src.readBoxStructure k m h fuel p ⟨t, user, log⟩
    let r := readBoxStructure m d h fuel p ⟨place t, user, log⟩
    s.1 = r.1 ∧ place s.2.src = r.2.pos ∧ s.2.user = r.2.user ∧ s.2.log = r.2.log := by
  intro s r
  rcases readBoxStructure_st ⟨hs, ha, hf⟩ m h hh fuel p ⟨t, user, log⟩ rfl with ⟨-, h2⟩ | ⟨e, h1, -⟩
  · have h2 : r = (s.1, abT place s.2) := h2
    rw [h2]
    exact ⟨rfl, rfl, rfl, rfl⟩
  · cases h1

/-- **C91**, dump — From a source that does not fail, `mp4tool dump` prints the same lines as from the bytes in memory, and ends in the same way. -/
theorem source_dump (hs : Delivers k.src d place) (ha : ∀ n, 0 < n → 0 < k.ask n ∧ k.ask n ≤ n) (hf : k.fuel = d.length + 2)
    (cfg : Tool.DumpCfg) (fuel : Nat) (t : σ) (h0 : place t = 0) : Src.dump k cfg fuel t = Tool.dump d cfg fuel :=
  dump_st ⟨hs, ha, hf⟩ cfg fuel t h0

/-- **C91**, extract — From a source that does not fail, `mp4tool extract` prints the same bytes as from the bytes in memory, and ends in the same way. -/
theorem source_extract (hs : Delivers k.src d place) (ha : ∀ n, 0 < n → 0 < k.ask n ∧ k.ask n ≤ n) (hf : k.fuel = d.length + 2)
    (ty : BoxType) (fuel : Nat) (t : σ) (h0 : place t = 0) : Src.extract k ty fuel t = Tool.extract d ty fuel :=
  extract_st ⟨hs, ha, hf⟩ ty fuel t h0

/-- **C91**, psshdump and probe — From a source that does not fail they give what they give from the bytes in memory; from one that fails, an error.  In particular, if they succeed,
the result is right. -/
theorem source_reports (hs : Serves k.src d place failed) (ha : ∀ n, 0 < n → 0 < k.ask n ∧ k.ask n ≤ n) (hf : k.fuel = d.length + 2)
    (m : BoxMap) (fuel : Nat) (t : σ) (ht : failed t = none) :
    Faithful place failed (Src.psshdump k m fuel t) (Tool.psshdump m d fuel (place t)) ∧
    Faithful place failed (Src.buildReport k m fuel t) (Tool.buildReport m d fuel (place t)) ∧
    Faithful place failed (Src.probeJson k m fuel t) (Tool.probeJson m d fuel (place t)) :=
  ⟨faithful_of_sim (psshdump_sim ⟨hs, ha, hf⟩ m fuel) t ht, faithful_of_sim (buildReport_sim ⟨hs, ha, hf⟩ m fuel) t ht,
    faithful_of_sim (probeJson_sim ⟨hs, ha, hf⟩ m fuel) t ht⟩

/-! ## A source that meets the hypotheses -/

/-- A buffer with blocks of `size` bytes, as the commands use it (cmd/mp4tool/internal/dump/dump.go:18-21): a `Read` delivers no more than what is left of the block. -/
def blocks (d : Bytes) (size : Nat) : Source Nat where
  read := fun n p =>
    if d.length ≤ p then (([], some .eof), p)
    else (((d.drop p).take (min n (size - p % size)), none), p + ((d.drop p).take (min n (size - p % size))).length)
  tell := fun p => (.ok p, p)
  toEnd := fun _ => (.ok d.length, d.length)
  seek := fun q _ => (.ok q, q)
  back := fun n p => (.ok (p - n), p - n)

theorem blocks_deliver (d : Bytes) (size : Nat) (h : 0 < size) : Delivers (blocks d size) d id where
  read := by
    intro n p hn _
    by_cases h3 : d.length ≤ p
    · have hr : (blocks d size).read n p = (([], some .eof), p) := if_pos h3
      rw [hr]
      exact .inr (.inl ⟨h3, rfl, rfl, rfl⟩)
    · have hr : (blocks d size).read n p = (((d.drop p).take (min n (size - p % size)), none), p + ((d.drop p).take (min n (size - p % size))).length) := if_neg h3
      rw [hr]
      left
      have hl : ((d.drop p).take (min n (size - p % size))).length = min (min n (size - p % size)) (d.length - p) := by rw [List.length_take, List.length_drop]
      have hm := Nat.mod_lt p h
      refine ⟨((d.drop p).take (min n (size - p % size))).length, by omega, by omega, by simp only [id]; omega, ?_, rfl, rfl⟩
      simp only [id]
      congr 1
      exact (List.take_eq_take_iff.2 (by rw [hl, List.length_drop]; omega))
  tell := fun s hs => .inl ⟨rfl, rfl, hs⟩
  toEnd := fun s hs => .inl ⟨rfl, rfl, hs⟩
  seek := fun p s hs => .inl ⟨rfl, rfl, hs⟩
  back := fun n s _ hs => .inl ⟨rfl, rfl, hs⟩
  sticks := fun p s x hx => hx
  notEOF := fun s h => by cases h

theorem psshdump_blocks (d : Bytes) (size : Nat) (h : 0 < size) (m : BoxMap) (fuel : Nat) :
    (Src.psshdump (rdr (blocks d size) d) m fuel 0).1 = (Tool.psshdump m d fuel 0).1 := by
  rcases (source_reports (k := rdr (blocks d size) d) (failed := fun _ => none) (blocks_deliver d size h) (rdr_ask (blocks d size) d) rfl m fuel 0 rfl).1 with ⟨-, h5, -⟩ | ⟨e, h5, -⟩
  · exact h5
  · cases h5

/-- In blocks of any size, `psshdump` of a written file gives what C90 says. -/
example (size : Nat) (h : 0 < size) : ∃ es, (Src.psshdump (rdr (blocks (psshBoxes.ser true {}) size) (psshBoxes.ser true {})) BoxMap.std 9 0).1 = .ok es ∧
    PsshBoxes.Entries 0 (PsshBoxes.psshOf psshBoxes {} 0) es := by
  obtain ⟨rs, s', h1, h2, es, p, h3, h4⟩ := psshdump_written psshBoxes psshBoxes_ok.1 psshBoxes_ok.2.1 (by decide +kernel) psshBoxes_ok.2.2 9 (by decide +kernel) 0
  obtain ⟨rs', s'', h1', h2', -⟩ := writes_boxes psshBoxes psshBoxes_ok.1 (by decide +kernel)
  rw [h1] at h1'
  cases h1'
  rw [h2'] at h3
  refine ⟨es, ?_, h4⟩
  rw [psshdump_blocks _ size h, h3]

/-- A file of 11 bytes in blocks of three, shown in full. -/
example (w : Nat) (b : Nat → Bool) : Src.dump (rdr (blocks freeFile 3) freeFile) ⟨[], true, false, false, w, b⟩ 9 0 = Tool.dump freeFile ⟨[], true, false, false, w, b⟩ 9 :=
  source_dump (blocks_deliver freeFile 3 (by decide)) (rdr_ask (blocks freeFile 3) freeFile) rfl _ 9 0 rfl

/-- `moov` of a QuickTime file in blocks of any size -/
example (size : Nat) (h : 0 < size) : Src.extract (rdr (blocks quickTimeFile size) quickTimeFile) tMoov 30 0 = (.ok (), quickTimeFile.drop 20) :=
  (source_extract (k := rdr (blocks quickTimeFile size) quickTimeFile) (blocks_deliver quickTimeFile size h) (rdr_ask (blocks quickTimeFile size) quickTimeFile) rfl
    tMoov 30 0 rfl).trans extract_quicktime.2.1

/-- A failure is reported. -/
example : (Src.psshdump (rdr (portions (psshBoxes.ser true {}) 7 60 .sink) (psshBoxes.ser true {})) BoxMap.std 9 (0, false)).1 = .err .sink := err_of_check (by decide +kernel)

end Mp4.Props
