import Verif.Model.SourceRead

/-!
# What a source may do
-/

namespace Mp4.Spec

open Mp4 Mp4.Src

variable {σ : Type}

/-- A seek gives the position wanted, or it fails. -/
def SeekOk (place : σ → Nat) (failed : σ → Option Err) (want : Nat) (x : Except Err Nat × σ) : Prop :=
  (x.1 = .ok want ∧ place x.2 = want ∧ failed x.2 = none) ∨
    ∃ e, x.1 = .error e ∧ failed x.2 = some e

/-- The source delivers the bytes of `d`, in portions of any size, and may fail at any time: as long as it has not failed, a `Read` delivers at least one and
at most as many bytes as it is asked for, if there are any left; says `io.EOF` if there are none left; or fails.
`place` is the position in the file, `failed` remembers the error if it has failed (a later seek does not
undo that, `sticks`), which is not `io.EOF` (`notEOF`); otherwise it does not matter what the source does after having failed. -/
structure Serves (k : Source σ) (d : Bytes) (place : σ → Nat) (failed : σ → Option Err) : Prop where
  read : ∀ n s, 0 < n → failed s = none →
    (∃ j, 0 < j ∧ j ≤ n ∧ place s + j ≤ d.length ∧ (k.read n s).1 = ((d.drop (place s)).take j, none) ∧ place (k.read n s).2 = place s + j ∧
      failed (k.read n s).2 = none) ∨
    (d.length ≤ place s ∧ (k.read n s).1 = ([], some .eof) ∧ place (k.read n s).2 = place s ∧ failed (k.read n s).2 = none) ∨
    (∃ e, (k.read n s).1 = ([], some e) ∧ failed (k.read n s).2 = some e)
  tell : ∀ s, failed s = none → SeekOk place failed (place s) (k.tell s)
  toEnd : ∀ s, failed s = none → SeekOk place failed d.length (k.toEnd s)
  seek : ∀ p s, failed s = none → SeekOk place failed p (k.seek p s)
  back : ∀ n s, n ≤ place s → failed s = none → SeekOk place failed (place s - n) (k.back n s)
  sticks : ∀ p s e, failed s = some e → failed (k.seek p s).2 = some e
  notEOF : ∀ s, failed s ≠ some .eof

/-- What a call on the source gives, compared with the same call on the bytes in memory: if the source has not failed, the outcome and the position are
the same; if it has failed, an error is returned: its own, or `not enough bits` or `ErrUnsupportedBoxVersion`. -/
def Faithful {α : Type} (place : σ → Nat) (failed : σ → Option Err) (s : Out α × σ) (m : Out α × Nat) : Prop :=
  (failed s.2 = none ∧ s.1 = m.1 ∧ place s.2 = m.2) ∨
    ∃ e, failed s.2 = some e ∧ (s.1 = .err e ∨ s.1 = .err .notEnoughBits ∨ s.1 = .err .unsupportedVersion)

/-- A handler that returns every error it gets from `ReadPayload`, `ReadData` and `Expand`, and gives `ReadData` destinations that take
everything. -/
def PassesErrors {S P V : Type} : Prog S P V → Prop
  | .ret _ => True
  | .err _ => True
  | .get g => ∀ s, PassesErrors (g s)
  | .set _ g => PassesErrors g
  | .stream _ g => ∀ p, PassesErrors (g p)
  | .readPayload g => (∀ e, g (.error e) = .err e) ∧ ∀ a, PassesErrors (g (.ok a))
  | .readData w g => w.cap = none ∧ (∀ e b, g (.error e) b = .err e) ∧ ∀ n b, PassesErrors (g (.ok n) b)
  | .expand _ g => (∀ e, g (.error e) = .err e) ∧ ∀ l, PassesErrors (g (.ok l))

end Mp4.Spec
