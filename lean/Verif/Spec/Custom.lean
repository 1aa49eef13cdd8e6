import Verif.Lemmas.SafeUnmarshal
import Verif.Lemmas.Catalog
import Verif.Lemmas.Counts
import Verif.Lemmas.SoundUnmarshal

/-!
# Box types that an application defines

An application describes a box type by a Go struct with tags, and registers it with `AddBoxDef` and the like.  Its methods `GetFieldSize`,
`GetFieldLength` and `IsOptFieldEnabled` may be any functions.
-/

namespace Mp4.Props

/-- `FullBox` is embedded as the first field, with the tag `0,extend`, or not at all. -/
def FullBoxFirst (fs : Fields) : Prop :=
  "FullBox" ∉ fs.names ∨ ∃ t rest, fs = .cons { name := "FullBox", extend := true } t rest ∧ t.isFullBox = true ∧ "FullBox" ∉ rest.names

/-- What has to be seen to when a box type is defined so that decoding is safe. -/
structure SafeDef (bd : BoxDef) : Prop where
  /-- There is no `OnReadField`, `OnWriteField` or `BeforeUnmarshal`. -/
  noHook : bd.hook = .none
  noMeta : bd.metaHook = false
  full : FullBoxFirst bd.fields
  /-- Fields of a struct have different names (the Go compiler sees to that). -/
  names : bd.fields.nodup = true
  /-- No string has the (deprecated) tag `string=c_p`; the sizes of numbers are fixed and at most 1000 bits. -/
  sizes : bd.fields.plain [] none = true
  /-- The methods have an answer for every field with `size=dynamic` or `len=dynamic`. -/
  answers : bd.fields.Total bd.cfo (fun _ => True) true (some bd.cfo)
  /-- Elements of lists that may have any number of elements are not empty. -/
  moves : bd.fields.greedyOk = true

/-- What has to be seen to so that nothing is lost when a value is written and read again: the methods look only at fields (those named by
`deps`) that are decoded before the answer is needed; fields that depend on version or flags come behind `FullBox`. -/
structure OrderedDef (bd : BoxDef) : Prop where
  looks : bd.cfo.Local ∧ bd.fields.AllLocal
  order : bd.ok = true

/-- What has to be seen to so that nothing is lost when a box is read and written again: numbers are no larger than their Go types, `bool`
fields have one bit, strings end all in NUL (`nul`), or all with the payload; numbers of elements are computed from numbers of at most 32 bits, and
do not overflow. -/
structure ExactDef (nul : Bool) (bd : BoxDef) : Prop where
  numbers : bd.fields.exact nul [] (some bd.cfo) = true
  lengths : bd.cfo.SmallLen ∧ bd.fields.AllSmall
  counts : Fields.basic (some bd.cfo) bd.fields bd.fields = true

end Mp4.Props
