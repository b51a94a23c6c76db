import Verif.Message.Steps
/-!
Generated by tools/gen_messages.py from message/messages.gen.go: model of the JoinGroup messages.
-/
namespace Kafka.Msg

/-- message/messages.gen.go:4109-4112 `type JoinGroupRequestProtocol11 struct`; the defaults are the Go zero values. -/
@[ext] structure JoinGroupRequestProtocol11 where
  Name : GoString := []
  Metadata : Slice Byte := none

/-- message/messages.gen.go:4115-4120 `JoinGroupRequestProtocol11.Size` -/
def JoinGroupRequestProtocol11.size (_version : Int16) (t : JoinGroupRequestProtocol11) : Int32 :=
   (Sizeof.add (Sizeof.string t.Name) ;;
    Sizeof.add (Sizeof.bytes t.Metadata)) 0

/-- message/messages.gen.go:4123-4126 `JoinGroupRequestProtocol11.Encode` -/
def JoinGroupRequestProtocol11.encode (_version : Int16) (t : JoinGroupRequestProtocol11) : Encoder → Encoder :=
    (·.putString t.Name) ;;
    (·.putBytes t.Metadata)

/-- message/messages.gen.go:4129-4140 `JoinGroupRequestProtocol11.Decode`; the second argument is the receiver. -/
def JoinGroupRequestProtocol11.decode (_version : Int16) : JoinGroupRequestProtocol11 → Dec JoinGroupRequestProtocol11 :=
    Dec.field Dec.string (fun t x => { t with Name := x }) ;>
    Dec.field Dec.bytes (fun t x => { t with Metadata := x })

/-- The type `JoinGroupRequestProtocol11` with its methods. -/
def JoinGroupRequestProtocol11.type : MsgType :=
  { name := "JoinGroupRequestProtocol11", T := JoinGroupRequestProtocol11, zero := {}, size := JoinGroupRequestProtocol11.size, encode := JoinGroupRequestProtocol11.encode,
    decode := JoinGroupRequestProtocol11.decode }

/-- message/messages.gen.go:4012-4020 `type JoinGroupRequest struct`; the defaults are the Go zero values. -/
@[ext] structure JoinGroupRequest where
  GroupId : GoString := []
  SessionTimeoutMs : Int32 := 0
  RebalanceTimeoutMs : Int32 := 0
  MemberId : GoString := []
  GroupInstanceId : GoString := []
  ProtocolType : GoString := []
  Protocols : Slice JoinGroupRequestProtocol11 := none

/-- message/messages.gen.go:4023-4040 `JoinGroupRequest.Size` -/
def JoinGroupRequest.size (version : Int16) (t : JoinGroupRequest) : Int32 :=
   (Sizeof.add (Sizeof.string t.GroupId) ;;
    Sizeof.add Sizeof.int32 ;;
    onlyIf (version ≥ 1) (Sizeof.add Sizeof.int32) ;;
    Sizeof.add (Sizeof.string t.MemberId) ;;
    onlyIf (version ≥ 5) (Sizeof.add (Sizeof.string t.GroupInstanceId)) ;;
    Sizeof.add (Sizeof.string t.ProtocolType) ;;
    Sizeof.structs (JoinGroupRequestProtocol11.size version) t.Protocols) 0

/-- message/messages.gen.go:4043-4060 `JoinGroupRequest.Encode` -/
def JoinGroupRequest.encode (version : Int16) (t : JoinGroupRequest) : Encoder → Encoder :=
    (·.putString t.GroupId) ;;
    (·.putInt32 t.SessionTimeoutMs) ;;
    onlyIf (version ≥ 1) (·.putInt32 t.RebalanceTimeoutMs) ;;
    (·.putString t.MemberId) ;;
    onlyIf (version ≥ 5) (·.putString t.GroupInstanceId) ;;
    (·.putString t.ProtocolType) ;;
    Encoder.putStructs (JoinGroupRequestProtocol11.encode version) t.Protocols

/-- message/messages.gen.go:4063-4107 `JoinGroupRequest.Decode`; the second argument is the receiver. -/
def JoinGroupRequest.decode (version : Int16) : JoinGroupRequest → Dec JoinGroupRequest :=
    Dec.field Dec.string (fun t x => { t with GroupId := x }) ;>
    Dec.field Dec.int32 (fun t x => { t with SessionTimeoutMs := x }) ;>
    Dec.onlyIf (version ≥ 1) (Dec.field Dec.int32 (fun t x => { t with RebalanceTimeoutMs := x })) ;>
    Dec.field Dec.string (fun t x => { t with MemberId := x }) ;>
    Dec.onlyIf (version ≥ 5) (Dec.field Dec.string (fun t x => { t with GroupInstanceId := x })) ;>
    Dec.field Dec.string (fun t x => { t with ProtocolType := x }) ;>
    Dec.fieldStructs (JoinGroupRequestProtocol11.decode version {}) (·.Protocols) (fun t x => { t with Protocols := x })

/-- The type `JoinGroupRequest` with its methods. -/
def JoinGroupRequest.type : MsgType :=
  { name := "JoinGroupRequest", T := JoinGroupRequest, zero := {}, size := JoinGroupRequest.size, encode := JoinGroupRequest.encode,
    decode := JoinGroupRequest.decode }

/-- message/messages.gen.go:4234-4238 `type JoinGroupResponseMember11 struct`; the defaults are the Go zero values. -/
@[ext] structure JoinGroupResponseMember11 where
  MemberId : GoString := []
  GroupInstanceId : GoString := []
  Metadata : Slice Byte := none

/-- message/messages.gen.go:4241-4249 `JoinGroupResponseMember11.Size` -/
def JoinGroupResponseMember11.size (version : Int16) (t : JoinGroupResponseMember11) : Int32 :=
   (Sizeof.add (Sizeof.string t.MemberId) ;;
    onlyIf (version ≥ 5) (Sizeof.add (Sizeof.string t.GroupInstanceId)) ;;
    Sizeof.add (Sizeof.bytes t.Metadata)) 0

/-- message/messages.gen.go:4252-4258 `JoinGroupResponseMember11.Encode` -/
def JoinGroupResponseMember11.encode (version : Int16) (t : JoinGroupResponseMember11) : Encoder → Encoder :=
    (·.putString t.MemberId) ;;
    onlyIf (version ≥ 5) (·.putString t.GroupInstanceId) ;;
    (·.putBytes t.Metadata)

/-- message/messages.gen.go:4261-4278 `JoinGroupResponseMember11.Decode`; the second argument is the receiver. -/
def JoinGroupResponseMember11.decode (version : Int16) : JoinGroupResponseMember11 → Dec JoinGroupResponseMember11 :=
    Dec.field Dec.string (fun t x => { t with MemberId := x }) ;>
    Dec.onlyIf (version ≥ 5) (Dec.field Dec.string (fun t x => { t with GroupInstanceId := x })) ;>
    Dec.field Dec.bytes (fun t x => { t with Metadata := x })

/-- The type `JoinGroupResponseMember11` with its methods. -/
def JoinGroupResponseMember11.type : MsgType :=
  { name := "JoinGroupResponseMember11", T := JoinGroupResponseMember11, zero := {}, size := JoinGroupResponseMember11.size, encode := JoinGroupResponseMember11.encode,
    decode := JoinGroupResponseMember11.decode }

/-- message/messages.gen.go:4143-4151 `type JoinGroupResponse struct`; the defaults are the Go zero values. -/
@[ext] structure JoinGroupResponse where
  ThrottleTimeMs : Int32 := 0
  ErrorCode : Int16 := 0
  GenerationId : Int32 := 0
  ProtocolName : GoString := []
  Leader : GoString := []
  MemberId : GoString := []
  Members : Slice JoinGroupResponseMember11 := none

/-- message/messages.gen.go:4154-4169 `JoinGroupResponse.Size` -/
def JoinGroupResponse.size (version : Int16) (t : JoinGroupResponse) : Int32 :=
   (onlyIf (version ≥ 2) (Sizeof.add Sizeof.int32) ;;
    Sizeof.add Sizeof.int16 ;;
    Sizeof.add Sizeof.int32 ;;
    Sizeof.add (Sizeof.string t.ProtocolName) ;;
    Sizeof.add (Sizeof.string t.Leader) ;;
    Sizeof.add (Sizeof.string t.MemberId) ;;
    Sizeof.structs (JoinGroupResponseMember11.size version) t.Members) 0

/-- message/messages.gen.go:4172-4187 `JoinGroupResponse.Encode` -/
def JoinGroupResponse.encode (version : Int16) (t : JoinGroupResponse) : Encoder → Encoder :=
    onlyIf (version ≥ 2) (·.putInt32 t.ThrottleTimeMs) ;;
    (·.putInt16 t.ErrorCode) ;;
    (·.putInt32 t.GenerationId) ;;
    (·.putString t.ProtocolName) ;;
    (·.putString t.Leader) ;;
    (·.putString t.MemberId) ;;
    Encoder.putStructs (JoinGroupResponseMember11.encode version) t.Members

/-- message/messages.gen.go:4190-4232 `JoinGroupResponse.Decode`; the second argument is the receiver. -/
def JoinGroupResponse.decode (version : Int16) : JoinGroupResponse → Dec JoinGroupResponse :=
    Dec.onlyIf (version ≥ 2) (Dec.field Dec.int32 (fun t x => { t with ThrottleTimeMs := x })) ;>
    Dec.field Dec.int16 (fun t x => { t with ErrorCode := x }) ;>
    Dec.field Dec.int32 (fun t x => { t with GenerationId := x }) ;>
    Dec.field Dec.string (fun t x => { t with ProtocolName := x }) ;>
    Dec.field Dec.string (fun t x => { t with Leader := x }) ;>
    Dec.field Dec.string (fun t x => { t with MemberId := x }) ;>
    Dec.fieldStructs (JoinGroupResponseMember11.decode version {}) (·.Members) (fun t x => { t with Members := x })

/-- The type `JoinGroupResponse` with its methods. -/
def JoinGroupResponse.type : MsgType :=
  { name := "JoinGroupResponse", T := JoinGroupResponse, zero := {}, size := JoinGroupResponse.size, encode := JoinGroupResponse.encode,
    decode := JoinGroupResponse.decode }

end Kafka.Msg
