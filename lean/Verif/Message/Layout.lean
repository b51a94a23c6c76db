import Verif.Message.Steps
import Verif.Message.Wire
/-!
What a specification of a message type consists of.
-/
namespace Kafka

/-- Specification of a message type, independent of the code's `Size`, `Encode` and `Decode`.

* `wire v t`: the bytes that stand for `t` at version `v`;
* `Fits v t`: all strings and arrays that are on the wire at version `v` have a length
  their prefix can represent;
* `seen v t t0`: the value a reader has who starts from `t0` and is sent `t` at version
  `v`: fields not present at this version keep their value, nil arrays and byte strings
  of the formats without null marker become empty;
* `Canon v t`: `t` carries nothing that the wire format of version `v` cannot express:
  fields not present at `v` have their zero value, arrays of structures and byte strings
  that are present are not nil, and so on in the nested structures. -/
structure Layout (M : MsgType) where
  wire : Int16 → M.T → List Byte
  Fits : Int16 → M.T → Prop
  seen : Int16 → M.T → M.T → M.T
  Canon : Int16 → M.T → Prop

/-- A byte string or array without null marker that is present and not nil. -/
def Slice.NotNil {α : Type} (s : Slice α) : Prop := s ≠ none

/-- An array of structures that is present, not nil, with canonical elements. -/
def CanonAll {α : Type} (p : α → Prop) (s : Slice α) : Prop := s ≠ none ∧ ∀ x ∈ s.elems, p x

end Kafka
