import Verif.Message.Steps
/-!
Generated by tools/gen_messages.py from message/messages.gen.go: model of the DeleteGroups messages.
-/
namespace Kafka.Msg

/-- message/messages.gen.go:10482-10484 `type DeleteGroupsRequest struct`; the defaults are the Go zero values. -/
@[ext] structure DeleteGroupsRequest where
  GroupsNames : Slice GoString := none

/-- message/messages.gen.go:10487-10491 `DeleteGroupsRequest.Size` -/
def DeleteGroupsRequest.size (_version : Int16) (t : DeleteGroupsRequest) : Int32 :=
   (Sizeof.add (Sizeof.stringArray t.GroupsNames)) 0

/-- message/messages.gen.go:10494-10496 `DeleteGroupsRequest.Encode` -/
def DeleteGroupsRequest.encode (_version : Int16) (t : DeleteGroupsRequest) : Encoder → Encoder :=
    (·.putStringArray t.GroupsNames)

/-- message/messages.gen.go:10499-10506 `DeleteGroupsRequest.Decode`; the second argument is the receiver. -/
def DeleteGroupsRequest.decode (_version : Int16) : DeleteGroupsRequest → Dec DeleteGroupsRequest :=
    Dec.field Dec.stringArray (fun t x => { t with GroupsNames := x })

/-- The type `DeleteGroupsRequest` with its methods. -/
def DeleteGroupsRequest.type : MsgType :=
  { name := "DeleteGroupsRequest", T := DeleteGroupsRequest, zero := {}, size := DeleteGroupsRequest.size, encode := DeleteGroupsRequest.encode,
    decode := DeleteGroupsRequest.decode }

/-- message/messages.gen.go:10559-10562 `type DeletableGroupResult42 struct`; the defaults are the Go zero values. -/
@[ext] structure DeletableGroupResult42 where
  GroupId : GoString := []
  ErrorCode : Int16 := 0

/-- message/messages.gen.go:10565-10570 `DeletableGroupResult42.Size` -/
def DeletableGroupResult42.size (_version : Int16) (t : DeletableGroupResult42) : Int32 :=
   (Sizeof.add (Sizeof.string t.GroupId) ;;
    Sizeof.add Sizeof.int16) 0

/-- message/messages.gen.go:10573-10576 `DeletableGroupResult42.Encode` -/
def DeletableGroupResult42.encode (_version : Int16) (t : DeletableGroupResult42) : Encoder → Encoder :=
    (·.putString t.GroupId) ;;
    (·.putInt16 t.ErrorCode)

/-- message/messages.gen.go:10579-10590 `DeletableGroupResult42.Decode`; the second argument is the receiver. -/
def DeletableGroupResult42.decode (_version : Int16) : DeletableGroupResult42 → Dec DeletableGroupResult42 :=
    Dec.field Dec.string (fun t x => { t with GroupId := x }) ;>
    Dec.field Dec.int16 (fun t x => { t with ErrorCode := x })

/-- The type `DeletableGroupResult42` with its methods. -/
def DeletableGroupResult42.type : MsgType :=
  { name := "DeletableGroupResult42", T := DeletableGroupResult42, zero := {}, size := DeletableGroupResult42.size, encode := DeletableGroupResult42.encode,
    decode := DeletableGroupResult42.decode }

/-- message/messages.gen.go:10509-10512 `type DeleteGroupsResponse struct`; the defaults are the Go zero values. -/
@[ext] structure DeleteGroupsResponse where
  ThrottleTimeMs : Int32 := 0
  Results : Slice DeletableGroupResult42 := none

/-- message/messages.gen.go:10515-10523 `DeleteGroupsResponse.Size` -/
def DeleteGroupsResponse.size (version : Int16) (t : DeleteGroupsResponse) : Int32 :=
   (Sizeof.add Sizeof.int32 ;;
    Sizeof.structs (DeletableGroupResult42.size version) t.Results) 0

/-- message/messages.gen.go:10526-10534 `DeleteGroupsResponse.Encode` -/
def DeleteGroupsResponse.encode (version : Int16) (t : DeleteGroupsResponse) : Encoder → Encoder :=
    (·.putInt32 t.ThrottleTimeMs) ;;
    Encoder.putStructs (DeletableGroupResult42.encode version) t.Results

/-- message/messages.gen.go:10537-10557 `DeleteGroupsResponse.Decode`; the second argument is the receiver. -/
def DeleteGroupsResponse.decode (version : Int16) : DeleteGroupsResponse → Dec DeleteGroupsResponse :=
    Dec.field Dec.int32 (fun t x => { t with ThrottleTimeMs := x }) ;>
    Dec.fieldStructs (DeletableGroupResult42.decode version {}) (·.Results) (fun t x => { t with Results := x })

/-- The type `DeleteGroupsResponse` with its methods. -/
def DeleteGroupsResponse.type : MsgType :=
  { name := "DeleteGroupsResponse", T := DeleteGroupsResponse, zero := {}, size := DeleteGroupsResponse.size, encode := DeleteGroupsResponse.encode,
    decode := DeleteGroupsResponse.decode }

end Kafka.Msg
