import Verif.Message.Steps
/-!
Generated by tools/gen_messages.py from message/messages.gen.go: model of the ListGroups messages.
-/
namespace Kafka.Msg

/-- message/messages.gen.go:5031-5032 `type ListGroupsRequest struct`; the defaults are the Go zero values. -/
@[ext] structure ListGroupsRequest where

/-- message/messages.gen.go:5035-5038 `ListGroupsRequest.Size` -/
def ListGroupsRequest.size (_version : Int16) (_t : ListGroupsRequest) : Int32 :=
   (nop) 0

/-- message/messages.gen.go:5041-5042 `ListGroupsRequest.Encode` -/
def ListGroupsRequest.encode (_version : Int16) (_t : ListGroupsRequest) : Encoder → Encoder :=
    nop

/-- message/messages.gen.go:5045-5048 `ListGroupsRequest.Decode`; the second argument is the receiver. -/
def ListGroupsRequest.decode (_version : Int16) : ListGroupsRequest → Dec ListGroupsRequest :=
    Dec.nop

/-- The type `ListGroupsRequest` with its methods. -/
def ListGroupsRequest.type : MsgType :=
  { name := "ListGroupsRequest", T := ListGroupsRequest, zero := {}, size := ListGroupsRequest.size, encode := ListGroupsRequest.encode,
    decode := ListGroupsRequest.decode }

/-- message/messages.gen.go:5114-5117 `type ListedGroup16 struct`; the defaults are the Go zero values. -/
@[ext] structure ListedGroup16 where
  GroupId : GoString := []
  ProtocolType : GoString := []

/-- message/messages.gen.go:5120-5125 `ListedGroup16.Size` -/
def ListedGroup16.size (_version : Int16) (t : ListedGroup16) : Int32 :=
   (Sizeof.add (Sizeof.string t.GroupId) ;;
    Sizeof.add (Sizeof.string t.ProtocolType)) 0

/-- message/messages.gen.go:5128-5131 `ListedGroup16.Encode` -/
def ListedGroup16.encode (_version : Int16) (t : ListedGroup16) : Encoder → Encoder :=
    (·.putString t.GroupId) ;;
    (·.putString t.ProtocolType)

/-- message/messages.gen.go:5134-5145 `ListedGroup16.Decode`; the second argument is the receiver. -/
def ListedGroup16.decode (_version : Int16) : ListedGroup16 → Dec ListedGroup16 :=
    Dec.field Dec.string (fun t x => { t with GroupId := x }) ;>
    Dec.field Dec.string (fun t x => { t with ProtocolType := x })

/-- The type `ListedGroup16` with its methods. -/
def ListedGroup16.type : MsgType :=
  { name := "ListedGroup16", T := ListedGroup16, zero := {}, size := ListedGroup16.size, encode := ListedGroup16.encode,
    decode := ListedGroup16.decode }

/-- message/messages.gen.go:5051-5055 `type ListGroupsResponse struct`; the defaults are the Go zero values. -/
@[ext] structure ListGroupsResponse where
  ThrottleTimeMs : Int32 := 0
  ErrorCode : Int16 := 0
  Groups : Slice ListedGroup16 := none

/-- message/messages.gen.go:5058-5069 `ListGroupsResponse.Size` -/
def ListGroupsResponse.size (version : Int16) (t : ListGroupsResponse) : Int32 :=
   (onlyIf (version ≥ 1) (Sizeof.add Sizeof.int32) ;;
    Sizeof.add Sizeof.int16 ;;
    Sizeof.structs (ListedGroup16.size version) t.Groups) 0

/-- message/messages.gen.go:5072-5083 `ListGroupsResponse.Encode` -/
def ListGroupsResponse.encode (version : Int16) (t : ListGroupsResponse) : Encoder → Encoder :=
    onlyIf (version ≥ 1) (·.putInt32 t.ThrottleTimeMs) ;;
    (·.putInt16 t.ErrorCode) ;;
    Encoder.putStructs (ListedGroup16.encode version) t.Groups

/-- message/messages.gen.go:5086-5112 `ListGroupsResponse.Decode`; the second argument is the receiver. -/
def ListGroupsResponse.decode (version : Int16) : ListGroupsResponse → Dec ListGroupsResponse :=
    Dec.onlyIf (version ≥ 1) (Dec.field Dec.int32 (fun t x => { t with ThrottleTimeMs := x })) ;>
    Dec.field Dec.int16 (fun t x => { t with ErrorCode := x }) ;>
    Dec.fieldStructs (ListedGroup16.decode version {}) (·.Groups) (fun t x => { t with Groups := x })

/-- The type `ListGroupsResponse` with its methods. -/
def ListGroupsResponse.type : MsgType :=
  { name := "ListGroupsResponse", T := ListGroupsResponse, zero := {}, size := ListGroupsResponse.size, encode := ListGroupsResponse.encode,
    decode := ListGroupsResponse.decode }

end Kafka.Msg
