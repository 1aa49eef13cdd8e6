import Verif.Lemmas.SourceDivide
import Verif.Props.SourceTool
import Verif.Props.DivideBoxes

/-!
# C93: `mp4tool divide` does not take a failure of the input for its end
-/

namespace Mp4.Props

open Mp4 Mp4.Spec Mp4.Src Mp4.Tool

variable {σ : Type} {k : Rdr σ} {d : Bytes} {place : σ → Nat} {failed : σ → Option Err}

/-- **C93** — From a source that delivers the file in portions of any size and may fail at any time: if it has not failed, the outcome of `divide`, the tracks and all files are those
of the bytes in memory; if it has failed, `divide` does not report success. -/
theorem source_divide (hs : Serves k.src d place failed) (ha : ∀ n, 0 < n → 0 < k.ask n ∧ k.ask n ≤ n) (hf : k.fuel = d.length + 2)
    (fuel : Nat) (t : σ) (ht : failed t = none) (h0 : place t = 0) :
    let r := Src.divide k fuel t
    (failed r.2.2.2 = none ∧ r.1 = (Tool.divide d fuel).1 ∧ r.2.1 = (Tool.divide d fuel).2.1 ∧ r.2.2.1 = (Tool.divide d fuel).2.2) ∨
      ∃ e, failed r.2.2.2 = some e ∧ r.1 ≠ .ok () := by
  intro r
  rcases divide_any ⟨hs, ha, hf⟩ fuel t ht h0 with ⟨h1, h2⟩ | h1
  · rw [h2]
    exact .inl ⟨h1, rfl, rfl, rfl⟩
  · exact .inr h1

/-- **C93**, success — When `divide` reports success, the source has not failed, and the files are those of the whole input. -/
theorem source_divided (hs : Serves k.src d place failed) (ha : ∀ n, 0 < n → 0 < k.ask n ∧ k.ask n ≤ n) (hf : k.fuel = d.length + 2)
    (fuel : Nat) (t t' : σ) (ht : failed t = none) (h0 : place t = 0) (ts : List DTrack) (s : DivSt) (h : Src.divide k fuel t = (.ok (), ts, s, t')) :
    failed t' = none ∧ Tool.divide d fuel = (.ok (), ts, s) := by
  have := source_divide hs ha hf fuel t ht h0
  rw [h] at this
  rcases this with ⟨h1, h2, h3, h4⟩ | ⟨e, -, h2⟩
  · exact ⟨h1, Prod.ext h2.symm (Prod.ext h3.symm h4.symm)⟩
  · exact absurd rfl h2

/-- **C93**, with C82 — When `divide` reports success on a source of a file written as a row of boxes, whose tracks are of different kinds: `init.mp4` of a track is written as exactly its
boxes of initialization segments, and its segments as exactly its fragments: nothing is missing, whatever the source did. -/
theorem source_divide_boxes (B : Boxes) (hs : Serves k.src (B.ser true {}) place failed) (ha : ∀ n, 0 < n → 0 < k.ask n ∧ k.ask n ≤ n)
    (hf : k.fuel = (B.ser true {}).length + 2) (hok : B.Ok true false {}) (hn : B.Neutral) (hraw : B.Unknown true {}) (hlen : (B.ser true {}).length ≤ 2 ^ 48) (fuel : Nat)
    (hfuel : (B.forest true {} 0).count < fuel) (t t' : σ) (ht : failed t = none) (h0 : place t = 0) (ts : List DTrack) (s : DivSt)
    (h : Src.divide k fuel t = (.ok (), ts, s, t')) (hk : ts.Pairwise fun a b => a.kind ≠ b.kind) (u : DTrack) (hu : u ∈ ts) :
    s.inits u.kind = (B.initOf u.id).ser true {} ∧ segmentFiles s u = (B.segmentsOf u.id).map (·.ser true {}) := by
  have := divide_boxes B hok hn hraw hlen fuel hfuel ts s (source_divided hs ha hf fuel t t' ht h0 ts s h).2 hk u hu
  exact ⟨this.1, this.2.2.2.1⟩

/-! ## Cases -/

/-- The movie with two tracks, in blocks of any size: success, two tracks -/
example (size : Nat) (h : 0 < size) : (Src.divide (rdr (blocks (twoTracks.ser true {}) size) (twoTracks.ser true {})) 60 0).1 = .ok () ∧
    (Src.divide (rdr (blocks (twoTracks.ser true {}) size) (twoTracks.ser true {})) 60 0).2.1.map (·.id) = [1, 2] := by
  rcases source_divide (k := rdr (blocks (twoTracks.ser true {}) size) (twoTracks.ser true {})) (failed := fun _ => none) (blocks_deliver _ size h)
    (rdr_ask (blocks (twoTracks.ser true {}) size) (twoTracks.ser true {})) rfl 60 0 rfl rfl with ⟨-, h1, h2, -⟩ | ⟨e, h1, -⟩
  · rw [h1, h2]
    have : (match Tool.divide (twoTracks.ser true {}) 60 with | (.ok (), ts, _) => decide (ts.map (·.id) = [1, 2]) | _ => false) = true := by decide +kernel
    generalize Tool.divide (twoTracks.ser true {}) 60 = x at this
    match x, this with
    | (.ok (), ts, _), this => exact ⟨rfl, of_decide_eq_true this⟩
  · cases h1

/-- A source of the bytes of `d` that fails with `e` at the `n`-th call of `Read`, when its state is `(0, n)`: the position, and the number of the call that fails, 0 after it -/
def tires (d : Bytes) (e : Err) : Source (Nat × Nat) where
  read := fun n s =>
    if s.2 ≤ 1 then (([], some e), (s.1, 0))
    else if d.length ≤ s.1 then (([], some .eof), (s.1, s.2 - 1))
    else (((d.drop s.1).take n, none), (s.1 + ((d.drop s.1).take n).length, s.2 - 1))
  tell := fun s => (.ok s.1, s)
  toEnd := fun s => (.ok d.length, (d.length, s.2))
  seek := fun p s => (.ok p, (p, s.2))
  back := fun n s => (.ok (s.1 - n), (s.1 - n, s.2))

theorem tires_serve (d : Bytes) (e : Err) (he : e ≠ .eof) : Serves (tires d e) d (·.1) (fun s => if s.2 = 0 then some e else none) where
  read := by
    intro n s hn hs
    by_cases h1 : s.2 ≤ 1
    · have hr : (tires d e).read n s = (([], some e), (s.1, 0)) := if_pos h1
      rw [hr]
      exact .inr (.inr ⟨e, rfl, rfl⟩)
    · have h2 : (if s.2 - 1 = 0 then some e else none) = none := if_neg (by omega)
      by_cases h3 : d.length ≤ s.1
      · have hr : (tires d e).read n s = (([], some .eof), (s.1, s.2 - 1)) := (if_neg h1).trans (if_pos h3)
        rw [hr]
        exact .inr (.inl ⟨h3, rfl, rfl, h2⟩)
      · have hr : (tires d e).read n s = (((d.drop s.1).take n, none), (s.1 + ((d.drop s.1).take n).length, s.2 - 1)) := (if_neg h1).trans (if_neg h3)
        rw [hr]
        left
        have hl : ((d.drop s.1).take n).length = min n (d.length - s.1) := by rw [List.length_take, List.length_drop]
        refine ⟨((d.drop s.1).take n).length, by omega, by omega, by omega, ?_, rfl, h2⟩
        simp only
        congr 1
        exact (List.take_eq_take_iff.2 (by rw [hl, List.length_drop]; omega))
  tell := fun s hs => .inl ⟨rfl, rfl, hs⟩
  toEnd := fun s hs => .inl ⟨rfl, rfl, hs⟩
  seek := fun p s hs => .inl ⟨rfl, rfl, hs⟩
  back := fun n s _ hs => .inl ⟨rfl, rfl, hs⟩
  sticks := fun p s x hx => hx
  notEOF := by
    intro s h
    split at h
    · injection h with h; exact he h
    · cases h

/-- The movie, from a source that fails at the 657th call, the one that asks for the only byte of the last `mdat`: an error, and the last segment lacks this byte. -/
example : (match Src.divide (rdr (tires (twoTracks.ser true {}) .sink) (twoTracks.ser true {})) 60 (0, 657) with
    | (.err .sink, [t, u], s, _, 0) => (segmentFiles s t).map List.length == [58, 56] && (segmentFiles s u).map List.length == [57] &&
        ((twoTracks.segmentsOf 1).map fun b => (b.ser true {}).length) == [58, 57]
    | _ => false) = true := by decide +kernel

/-- One call more, and all files are complete, but `divide` cannot know this: it has not seen the end of the input. -/
example : (match Src.divide (rdr (tires (twoTracks.ser true {}) .sink) (twoTracks.ser true {})) 60 (0, 658) with
    | (.err .sink, [t, _], s, _, 0) => (segmentFiles s t).map List.length == [58, 57]
    | _ => false) = true := by decide +kernel

end Mp4.Props
