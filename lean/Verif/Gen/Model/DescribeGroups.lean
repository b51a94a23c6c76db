import Verif.Message.Steps
/-!
Generated by tools/gen_messages.py from message/messages.gen.go: model of the DescribeGroups messages.
-/
namespace Kafka.Msg

/-- message/messages.gen.go:4776-4779 `type DescribeGroupsRequest struct`; the defaults are the Go zero values. -/
@[ext] structure DescribeGroupsRequest where
  Groups : Slice GoString := none
  IncludeAuthorizedOperations : Bool := false

/-- message/messages.gen.go:4782-4789 `DescribeGroupsRequest.Size` -/
def DescribeGroupsRequest.size (version : Int16) (t : DescribeGroupsRequest) : Int32 :=
   (Sizeof.add (Sizeof.stringArray t.Groups) ;;
    onlyIf (version ≥ 3) (Sizeof.add Sizeof.bool)) 0

/-- message/messages.gen.go:4792-4797 `DescribeGroupsRequest.Encode` -/
def DescribeGroupsRequest.encode (version : Int16) (t : DescribeGroupsRequest) : Encoder → Encoder :=
    (·.putStringArray t.Groups) ;;
    onlyIf (version ≥ 3) (·.putBool t.IncludeAuthorizedOperations)

/-- message/messages.gen.go:4800-4813 `DescribeGroupsRequest.Decode`; the second argument is the receiver. -/
def DescribeGroupsRequest.decode (version : Int16) : DescribeGroupsRequest → Dec DescribeGroupsRequest :=
    Dec.field Dec.stringArray (fun t x => { t with Groups := x }) ;>
    Dec.onlyIf (version ≥ 3) (Dec.field Dec.bool (fun t x => { t with IncludeAuthorizedOperations := x }))

/-- The type `DescribeGroupsRequest` with its methods. -/
def DescribeGroupsRequest.type : MsgType :=
  { name := "DescribeGroupsRequest", T := DescribeGroupsRequest, zero := {}, size := DescribeGroupsRequest.size, encode := DescribeGroupsRequest.encode,
    decode := DescribeGroupsRequest.decode }

/-- message/messages.gen.go:4963-4970 `type DescribedGroupMember15 struct`; the defaults are the Go zero values. -/
@[ext] structure DescribedGroupMember15 where
  MemberId : GoString := []
  GroupInstanceId : GoString := []
  ClientId : GoString := []
  ClientHost : GoString := []
  MemberMetadata : Slice Byte := none
  MemberAssignment : Slice Byte := none

/-- message/messages.gen.go:4973-4984 `DescribedGroupMember15.Size` -/
def DescribedGroupMember15.size (version : Int16) (t : DescribedGroupMember15) : Int32 :=
   (Sizeof.add (Sizeof.string t.MemberId) ;;
    onlyIf (version ≥ 4) (Sizeof.add (Sizeof.string t.GroupInstanceId)) ;;
    Sizeof.add (Sizeof.string t.ClientId) ;;
    Sizeof.add (Sizeof.string t.ClientHost) ;;
    Sizeof.add (Sizeof.bytes t.MemberMetadata) ;;
    Sizeof.add (Sizeof.bytes t.MemberAssignment)) 0

/-- message/messages.gen.go:4987-4996 `DescribedGroupMember15.Encode` -/
def DescribedGroupMember15.encode (version : Int16) (t : DescribedGroupMember15) : Encoder → Encoder :=
    (·.putString t.MemberId) ;;
    onlyIf (version ≥ 4) (·.putString t.GroupInstanceId) ;;
    (·.putString t.ClientId) ;;
    (·.putString t.ClientHost) ;;
    (·.putBytes t.MemberMetadata) ;;
    (·.putBytes t.MemberAssignment)

/-- message/messages.gen.go:4999-5028 `DescribedGroupMember15.Decode`; the second argument is the receiver. -/
def DescribedGroupMember15.decode (version : Int16) : DescribedGroupMember15 → Dec DescribedGroupMember15 :=
    Dec.field Dec.string (fun t x => { t with MemberId := x }) ;>
    Dec.onlyIf (version ≥ 4) (Dec.field Dec.string (fun t x => { t with GroupInstanceId := x })) ;>
    Dec.field Dec.string (fun t x => { t with ClientId := x }) ;>
    Dec.field Dec.string (fun t x => { t with ClientHost := x }) ;>
    Dec.field Dec.bytes (fun t x => { t with MemberMetadata := x }) ;>
    Dec.field Dec.bytes (fun t x => { t with MemberAssignment := x })

/-- The type `DescribedGroupMember15` with its methods. -/
def DescribedGroupMember15.type : MsgType :=
  { name := "DescribedGroupMember15", T := DescribedGroupMember15, zero := {}, size := DescribedGroupMember15.size, encode := DescribedGroupMember15.encode,
    decode := DescribedGroupMember15.decode }

/-- message/messages.gen.go:4872-4880 `type DescribedGroup15 struct`; the defaults are the Go zero values. -/
@[ext] structure DescribedGroup15 where
  ErrorCode : Int16 := 0
  GroupId : GoString := []
  GroupState : GoString := []
  ProtocolType : GoString := []
  ProtocolData : GoString := []
  Members : Slice DescribedGroupMember15 := none
  AuthorizedOperations : Int32 := 0

/-- message/messages.gen.go:4883-4898 `DescribedGroup15.Size` -/
def DescribedGroup15.size (version : Int16) (t : DescribedGroup15) : Int32 :=
   (Sizeof.add Sizeof.int16 ;;
    Sizeof.add (Sizeof.string t.GroupId) ;;
    Sizeof.add (Sizeof.string t.GroupState) ;;
    Sizeof.add (Sizeof.string t.ProtocolType) ;;
    Sizeof.add (Sizeof.string t.ProtocolData) ;;
    Sizeof.structs (DescribedGroupMember15.size version) t.Members ;;
    onlyIf (version ≥ 3) (Sizeof.add Sizeof.int32)) 0

/-- message/messages.gen.go:4901-4916 `DescribedGroup15.Encode` -/
def DescribedGroup15.encode (version : Int16) (t : DescribedGroup15) : Encoder → Encoder :=
    (·.putInt16 t.ErrorCode) ;;
    (·.putString t.GroupId) ;;
    (·.putString t.GroupState) ;;
    (·.putString t.ProtocolType) ;;
    (·.putString t.ProtocolData) ;;
    Encoder.putStructs (DescribedGroupMember15.encode version) t.Members ;;
    onlyIf (version ≥ 3) (·.putInt32 t.AuthorizedOperations)

/-- message/messages.gen.go:4919-4961 `DescribedGroup15.Decode`; the second argument is the receiver. -/
def DescribedGroup15.decode (version : Int16) : DescribedGroup15 → Dec DescribedGroup15 :=
    Dec.field Dec.int16 (fun t x => { t with ErrorCode := x }) ;>
    Dec.field Dec.string (fun t x => { t with GroupId := x }) ;>
    Dec.field Dec.string (fun t x => { t with GroupState := x }) ;>
    Dec.field Dec.string (fun t x => { t with ProtocolType := x }) ;>
    Dec.field Dec.string (fun t x => { t with ProtocolData := x }) ;>
    Dec.fieldStructs (DescribedGroupMember15.decode version {}) (·.Members) (fun t x => { t with Members := x }) ;>
    Dec.onlyIf (version ≥ 3) (Dec.field Dec.int32 (fun t x => { t with AuthorizedOperations := x }))

/-- The type `DescribedGroup15` with its methods. -/
def DescribedGroup15.type : MsgType :=
  { name := "DescribedGroup15", T := DescribedGroup15, zero := {}, size := DescribedGroup15.size, encode := DescribedGroup15.encode,
    decode := DescribedGroup15.decode }

/-- message/messages.gen.go:4816-4819 `type DescribeGroupsResponse struct`; the defaults are the Go zero values. -/
@[ext] structure DescribeGroupsResponse where
  ThrottleTimeMs : Int32 := 0
  Groups : Slice DescribedGroup15 := none

/-- message/messages.gen.go:4822-4832 `DescribeGroupsResponse.Size` -/
def DescribeGroupsResponse.size (version : Int16) (t : DescribeGroupsResponse) : Int32 :=
   (onlyIf (version ≥ 1) (Sizeof.add Sizeof.int32) ;;
    Sizeof.structs (DescribedGroup15.size version) t.Groups) 0

/-- message/messages.gen.go:4835-4845 `DescribeGroupsResponse.Encode` -/
def DescribeGroupsResponse.encode (version : Int16) (t : DescribeGroupsResponse) : Encoder → Encoder :=
    onlyIf (version ≥ 1) (·.putInt32 t.ThrottleTimeMs) ;;
    Encoder.putStructs (DescribedGroup15.encode version) t.Groups

/-- message/messages.gen.go:4848-4870 `DescribeGroupsResponse.Decode`; the second argument is the receiver. -/
def DescribeGroupsResponse.decode (version : Int16) : DescribeGroupsResponse → Dec DescribeGroupsResponse :=
    Dec.onlyIf (version ≥ 1) (Dec.field Dec.int32 (fun t x => { t with ThrottleTimeMs := x })) ;>
    Dec.fieldStructs (DescribedGroup15.decode version {}) (·.Groups) (fun t x => { t with Groups := x })

/-- The type `DescribeGroupsResponse` with its methods. -/
def DescribeGroupsResponse.type : MsgType :=
  { name := "DescribeGroupsResponse", T := DescribeGroupsResponse, zero := {}, size := DescribeGroupsResponse.size, encode := DescribeGroupsResponse.encode,
    decode := DescribeGroupsResponse.decode }

end Kafka.Msg
