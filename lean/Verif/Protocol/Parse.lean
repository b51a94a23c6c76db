import Verif.Protocol.Schema
/-!
How a reader goes over bytes that claim to be a message, in the encoding of the versions that are not flexible.
Nothing here refers to the client's code, except that a choice the protocol leaves open (what a reader does with
a length it does not allow) is made as the client makes it: see `Ty.parse`.
-/
namespace Kafka.Protocol

/-- What becomes of the bytes: a value that takes up the first `n` of them, or there are not enough of them, or
there is a length that cannot be. -/
inductive Parsed (α : Type) where
  | ok (x : α) (n : Nat)
  | short
  | bad
deriving DecidableEq, Repr

/-- The big-endian number without sign that the bytes stand for. -/
def unsigned (bs : List Byte) : Nat := bs.foldl (fun n b => 256 * n + b.toNat) 0

namespace Parsed

variable {α β : Type}

/-- Nothing is read. -/
def value (x : α) : Parsed α := .ok x 0

/-- A value of `w` bytes. -/
def fixed (w : Nat) (f : List Byte → α) (bs : List Byte) : Parsed α :=
  if bs.length < w then .short else .ok (f (bs.take w)) w

/-- `p` read the beginning of `bs`; `q` reads on. -/
def next (bs : List Byte) (q : α → List Byte → Parsed β) : Parsed α → Parsed β
  | .ok x n => match q x (bs.drop n) with
    | .ok y m => .ok y (n + m)
    | .short => .short
    | .bad => .bad
  | .short => .short
  | .bad => .bad

/-- `n` times -/
def times (p : List Byte → Parsed α) : Nat → List Byte → Parsed (List α)
  | 0, _ => value []
  | n + 1, bs => (p bs).next bs fun x bs => (times p n bs).next bs fun xs _ => value (x :: xs)

end Parsed

open Parsed

/-- INT16, INT32: two's complement -/
def parse16 : List Byte → Parsed Int16 := fixed 2 fun bs => Int16.ofNat (unsigned bs)
def parse32 : List Byte → Parsed Int32 := fixed 4 fun bs => Int32.ofNat (unsigned bs)

/-- The elements are structures. -/
def Ty.isStruct : Ty → Bool
  | .struct _ => true
  | _ => false

mutual
/-- A value of the type at version `v`.  A length of -1 is null.  The protocol has no other negative lengths; here
a string or an array of scalars with another negative length is `bad`, a byte string with any negative length is
`bad`, and an array of structures with any negative length is null. -/
def Ty.parse (v : Int16) : Ty → List Byte → Parsed Val
  | .bool => fixed 1 fun bs => .bool (unsigned bs == 1)
  | .int8 => fixed 1 fun bs => .int8 (Int8.ofNat (unsigned bs))
  | .int16 => fixed 2 fun bs => .int16 (Int16.ofNat (unsigned bs))
  | .int32 => fixed 4 fun bs => .int32 (Int32.ofNat (unsigned bs))
  | .int64 => fixed 8 fun bs => .int64 (Int64.ofNat (unsigned bs))
  | .string => fun bs => (parse16 bs).next bs fun n bs =>
    if n.toInt = -1 then value (.str none) else if n.toInt < 0 then .bad
    else fixed n.toInt.toNat (fun s => .str (some s)) bs
  | .bytes => fun bs => (parse32 bs).next bs fun n bs =>
    if n.toInt < 0 then .bad else fixed n.toInt.toNat (fun s => .bytes (some s)) bs
  | .array t => fun bs => (parse32 bs).next bs fun n bs =>
    if n.toInt = -1 ∨ n.toInt < 0 ∧ t.isStruct then value (.arr none) else if n.toInt < 0 then .bad
    else (times (t.parse v) n.toInt.toNat bs).next bs fun xs _ => value (.arr (some xs))
  | .struct fs => fun bs => (fs.parse v bs).next bs fun l _ => value (.struct l)

/-- The fields that are there at version `v`, one after the other. -/
def Fields.parse (v : Int16) : Fields → List Byte → Parsed (List (String × Val))
  | .done => fun _ => value []
  | .cons name since upto _ t rest => fun bs =>
    if Present v since upto then
      (t.parse v bs).next bs fun x bs => (rest.parse v bs).next bs fun l _ => value ((name, x) :: l)
    else rest.parse v bs
end

/-- A message. -/
def Fields.message (v : Int16) (fs : Fields) (bs : List Byte) : Parsed Val :=
  (Ty.struct fs).parse v bs

mutual
/-- No value of the type at version `v` has a length that can be `bad`: there are no strings, byte strings or arrays
of scalars in it. -/
def Ty.safe (v : Int16) : Ty → Bool
  | .bool | .int8 | .int16 | .int32 | .int64 => true
  | .string | .bytes => false
  | .array t => t.isStruct && t.safe v
  | .struct fs => fs.safe v

def Fields.safe (v : Int16) : Fields → Bool
  | .done => true
  | .cons _ since upto _ t rest => (!decide (Present v since upto) || t.safe v) && rest.safe v
end

end Kafka.Protocol
