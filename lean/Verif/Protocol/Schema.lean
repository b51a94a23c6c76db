import Verif.Message.Wire
/-!
The language in which the Kafka protocol describes its messages
(https://kafka.apache.org/protocol#protocol_messages and the message definitions
clients/src/main/resources/common/message of Kafka 2.4): which fields a message has at which version, of
which type, and what bytes stand for its values.  Nothing here refers to the client's code.
-/
namespace Kafka.Protocol

mutual
/-- Types. -/
inductive Ty where
  | bool | int8 | int16 | int32 | int64 | string | bytes
  | array (t : Ty)
  | struct (fs : Fields)
/-- The fields of a structure, in order.  A field is there from version `since` to version `upto` (for ever
if there is none), and may be null from version `nullFrom` on (never if there is none). -/
inductive Fields where
  | done
  | cons (name : String) (since : Int16) (upto nullFrom : Option Int16) (t : Ty) (rest : Fields)
end

/-- Values.  Strings, byte strings and arrays may be null. -/
inductive Val where
  | bool (b : Bool)
  | int8 (i : Int8)
  | int16 (i : Int16)
  | int32 (i : Int32)
  | int64 (i : Int64)
  | str (s : Option GoString)
  | bytes (b : Option (List Byte))
  | arr (xs : Option (List Val))
  | struct (fs : List (String × Val))

/-- The value of a field. -/
def Val.get (name : String) : Val → Val
  | .struct fs => (fs.lookup name).getD (.struct [])
  | _ => .struct []

/-- A field is there at version `v`. -/
def Present (v since : Int16) : Option Int16 → Prop
  | none => since ≤ v
  | some u => since ≤ v ∧ v ≤ u

instance (v since : Int16) (upto : Option Int16) : Decidable (Present v since upto) := by
  unfold Present; cases upto <;> infer_instance

/-- UNSIGNED_VARINT -/
def uvarint (n : Nat) : List Byte :=
  if n < 128 then [BitVec.ofNat 8 n] else BitVec.ofNat 8 (n % 128 + 128) :: uvarint (n / 128)

mutual
/-- The bytes of a value at version `v`; `flex` says whether the version is a flexible one, in which lengths
are compact and every structure ends with the number of its tagged fields (of which there are none here).
Values of another type have no bytes. -/
def Ty.wire (flex : Bool) (v : Int16) : Ty → Val → List Byte
  | .bool, .bool b => [if b then 1 else 0]
  | .int8, .int8 i => Wire.bigEndian 1 i.toInt
  | .int16, .int16 i => Wire.bigEndian 2 i.toInt
  | .int32, .int32 i => Wire.bigEndian 4 i.toInt
  | .int64, .int64 i => Wire.bigEndian 8 i.toInt
  | .string, .str none => if flex then [0] else Wire.bigEndian 2 (-1)
  | .string, .str (some s) => (if flex then uvarint (s.length + 1) else Wire.bigEndian 2 s.length) ++ s
  | .bytes, .bytes none => if flex then [0] else Wire.bigEndian 4 (-1)
  | .bytes, .bytes (some s) => (if flex then uvarint (s.length + 1) else Wire.bigEndian 4 s.length) ++ s
  | .array _, .arr none => if flex then [0] else Wire.bigEndian 4 (-1)
  | .array t, .arr (some xs) =>
    (if flex then uvarint (xs.length + 1) else Wire.bigEndian 4 xs.length) ++ xs.flatMap (t.wire flex v)
  | .struct fs, x => fs.wire flex v x ++ if flex then [0] else []
  | _, _ => []

def Fields.wire (flex : Bool) (v : Int16) : Fields → Val → List Byte
  | .done, _ => []
  | .cons name since upto _ t rest, x =>
    (if Present v since upto then t.wire flex v (x.get name) else []) ++ rest.wire flex v x
end

mutual
/-- `x` is a value of the type at version `v`; `null` says whether null is allowed.  Lengths are bounded by
their prefixes.  With `nulls := false` byte strings are not null even where the protocol allows it. -/
def Ty.Valid (nulls : Bool) (v : Int16) : Ty → (null : Bool) → Val → Prop
  | .bool, _, .bool _ => True
  | .int8, _, .int8 _ => True
  | .int16, _, .int16 _ => True
  | .int32, _, .int32 _ => True
  | .int64, _, .int64 _ => True
  | .string, null, .str none => null = true
  | .string, _, .str (some s) => s.length < 2 ^ 15
  | .bytes, null, .bytes none => null = true ∧ nulls = true
  | .bytes, _, .bytes (some s) => s.length < 2 ^ 31
  | .array _, null, .arr none => null = true
  | .array t, _, .arr (some xs) => xs.length < 2 ^ 31 ∧ ∀ x ∈ xs, t.Valid nulls v false x
  | .struct fs, _, x => fs.Valid nulls v x
  | _, _, _ => False

def Fields.Valid (nulls : Bool) (v : Int16) : Fields → Val → Prop
  | .done, _ => True
  | .cons name since upto nullFrom t rest, x =>
    (Present v since upto → t.Valid nulls v (nullFrom.any (· ≤ v)) (x.get name)) ∧ rest.Valid nulls v x
end

/-- The value of a field that is not there: zero, or empty. -/
def Ty.zero : Ty → Val → Bool
  | .bool, .bool b => b == false
  | .int8, .int8 i => i == 0
  | .int16, .int16 i => i == 0
  | .int32, .int32 i => i == 0
  | .int64, .int64 i => i == 0
  | .string, .str s => s.getD [] == []
  | .bytes, .bytes b => b.getD [] == []
  | .array _, .arr xs => (xs.getD []).isEmpty
  | _, _ => false

mutual
/-- A program that reads `x` and reports `y` shows the value: the two are the same, except that it may show
an empty string, byte string or array for a null one, and that fields that are not there at version `v` are
shown as zero or empty. -/
def Ty.shows (v : Int16) : Ty → Val → Val → Bool
  | .bool, .bool x, .bool y => x == y
  | .int8, .int8 x, .int8 y => x == y
  | .int16, .int16 x, .int16 y => x == y
  | .int32, .int32 x, .int32 y => x == y
  | .int64, .int64 x, .int64 y => x == y
  | .string, .str x, .str y => x == y || x == none && y == some []
  | .bytes, .bytes x, .bytes y => x == y || x == none && y == some []
  | .array _, .arr none, .arr y => (y.getD []).isEmpty
  | .array t, .arr (some xs), .arr (some ys) =>
    xs.length == ys.length && (xs.zip ys).all fun p => t.shows v p.1 p.2
  | .struct fs, x, y => fs.shows v x y
  | _, _, _ => false

def Fields.shows (v : Int16) : Fields → Val → Val → Bool
  | .done, _, _ => true
  | .cons name since upto _ t rest, x, y =>
    (if Present v since upto then t.shows v (x.get name) (y.get name) else t.zero (y.get name)) &&
      rest.shows v x y
end

/-! Notation for the tables. -/

/-- a field there from version `since` on -/
def field (name : String) (since : Int16) (t : Ty) (rest : Fields) : Fields :=
  .cons name since none none t rest

/-- a field there from version `since` to version `upto` -/
def until_ (name : String) (since upto : Int16) (t : Ty) (rest : Fields) : Fields :=
  .cons name since (some upto) none t rest

/-- a field there from version `since` on, nullable from version `nullFrom` on -/
def nullable (name : String) (since nullFrom : Int16) (t : Ty) (rest : Fields) : Fields :=
  .cons name since none (some nullFrom) t rest

end Kafka.Protocol
