import Verif.Base.Go
/-!
Model of `message/sizeof/sizeof.go`; all arithmetic is wrapping int32, as in Go.
-/
namespace Kafka.Sizeof

/-- message/sizeof/sizeof.go:21-28 -/
def bool : Int32 := 1
def int8 : Int32 := 1
def int16 : Int32 := 2
def int32 : Int32 := 4
def int64 : Int32 := 8
def arrayLength : Int32 := int32

/-- message/sizeof/sizeof.go:31-33 `Bytes` -/
def bytes (data : Slice Byte) : Int32 := arrayLength + Int32.ofNat data.len

/-- message/sizeof/sizeof.go:36-38 `Int32Array` -/
def int32Array (ii : Slice Int32) : Int32 := arrayLength + Int32.ofNat ii.len * int32

/-- message/sizeof/sizeof.go:41-43 `Int64Array` -/
def int64Array (ii : Slice Int64) : Int32 := arrayLength + Int32.ofNat ii.len * int64

/-- message/sizeof/sizeof.go:46-48 `String` -/
def string (s : GoString) : Int32 := int16 + Int32.ofNat s.length

/-- message/sizeof/sizeof.go:51-58 `StringArray` -/
def stringArray (ss : Slice GoString) : Int32 :=
  ss.elems.foldl (fun sz s => sz + string s) arrayLength

/-- message/sizeof/sizeof.go:67-71 `VarInt` -/
def varInt (i : Int64) : Int32 := Int32.ofNat (putVarint i).length

/-- message/sizeof/sizeof.go:61-64 `VarBytes` -/
def varBytes (data : Slice Byte) : Int32 :=
  varInt (Int64.ofNat data.len) + Int32.ofNat data.len

/-- message/sizeof/sizeof.go:74-77 `VarString` -/
def varString (s : GoString) : Int32 :=
  varInt (Int64.ofNat s.length) + Int32.ofNat s.length

end Kafka.Sizeof

namespace Kafka.Sizeof

/-- The code generated for a field that is an array of structures, for example
message/messages.gen.go:40-43: `sz += ArrayLength`, then every item from the last to the
first. -/
def structs {α : Type} (size : α → Int32) (s : Slice α) (sz : Int32) : Int32 :=
  s.elems.reverse.foldl (fun sz x => sz + size x) (sz + arrayLength)

end Kafka.Sizeof
