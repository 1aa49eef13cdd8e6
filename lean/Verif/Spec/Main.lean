import Verif.Model.Main
import Verif.Spec.StringifyText

/-!
# Command lines

How options are written on a command line, and what they say.
-/

namespace Mp4.Spec

open Mp4

/-- the bytes of a text of ASCII characters -/
def chars (t : Str.Text) : Bytes := t.map (BitVec.ofNat 8)

/-- The value is written like this. -/
inductive Denotes : Cmd.OptKind → Cmd.OptValue → Bytes → Prop where
  /-- a string stands for itself -/
  | text (s : Bytes) : Denotes .text (.text s) s
  /-- decimal digits, no zero in front -/
  | decimal (n : Nat) (h : n < 2 ^ 64) : Denotes .number (.number n) (chars (Text.dec n))
  /-- hexadecimal digits -/
  | hexadecimal (n : Nat) (h : n < 2 ^ 64) : Denotes .number (.number n) (chars (48 :: 120 :: Text.hex n))
  | yes : Denotes .switch (.switch true) (chars (Str.lit "true"))
  | no : Denotes .switch (.switch false) (chars (Str.lit "false"))

/-- one dash or two -/
def Dashes (s : Bytes) : Prop := s = [0x2d] ∨ s = [0x2d, 0x2d]

/-- The option is written with these arguments: `-name`, `-name=value` or `-name value`, each of them with one dash or two. -/
inductive Writes (name : Bytes) : Cmd.OptKind → Cmd.OptValue → List Bytes → Prop where
  | switch {dashes : Bytes} (h : Dashes dashes) : Writes name .switch (.switch true) [dashes ++ name]
  | sign {dashes : Bytes} (h : Dashes dashes) {k : Cmd.OptKind} {v : Cmd.OptValue} {t : Bytes} (hv : Denotes k v t) : Writes name k v [dashes ++ name ++ 0x3d :: t]
  | apart {dashes : Bytes} (h : Dashes dashes) {k : Cmd.OptKind} (hk : k ≠ .switch) {v : Cmd.OptValue} {t : Bytes} (hv : Denotes k v t) : Writes name k v [dashes ++ name, t]

/-- These options are written with these arguments, one behind the other. -/
inductive Line (decl : List (Bytes × Cmd.OptKind)) : List (Bytes × Cmd.OptValue) → List Bytes → Prop where
  | nil : Line decl [] []
  | cons {name : Bytes} {k : Cmd.OptKind} (hd : (name, k) ∈ decl) {v : Cmd.OptValue} {opt : List Bytes} (h : Writes name k v opt) {vals : List (Bytes × Cmd.OptValue)} {opts : List Bytes}
      (hl : Line decl vals opts) : Line decl ((name, v) :: vals) (opt ++ opts)

/-- an argument that is not an option: it does not begin with a dash (or is nothing else) -/
def Operand (s : Bytes) : Prop := s = [0x2d] ∨ s.head? ≠ some 0x2d

/-- what has been said about an option: the last value counts -/
def said (vals : List (Bytes × Cmd.OptValue)) (name : String) : Option Cmd.OptValue := ((vals.filter fun x => x.1 = Cmd.word name).getLast?).map (·.2)

end Mp4.Spec
