import Verif.Message.Steps
/-!
Generated by tools/gen_messages.py from message/messages.gen.go: model of the Heartbeat messages.
-/
namespace Kafka.Msg

/-- message/messages.gen.go:4281-4286 `type HeartbeatRequest struct`; the defaults are the Go zero values. -/
@[ext] structure HeartbeatRequest where
  GroupId : GoString := []
  GenerationId : Int32 := 0
  MemberId : GoString := []
  GroupInstanceId : GoString := []

/-- message/messages.gen.go:4289-4298 `HeartbeatRequest.Size` -/
def HeartbeatRequest.size (version : Int16) (t : HeartbeatRequest) : Int32 :=
   (Sizeof.add (Sizeof.string t.GroupId) ;;
    Sizeof.add Sizeof.int32 ;;
    Sizeof.add (Sizeof.string t.MemberId) ;;
    onlyIf (version ≥ 3) (Sizeof.add (Sizeof.string t.GroupInstanceId))) 0

/-- message/messages.gen.go:4301-4308 `HeartbeatRequest.Encode` -/
def HeartbeatRequest.encode (version : Int16) (t : HeartbeatRequest) : Encoder → Encoder :=
    (·.putString t.GroupId) ;;
    (·.putInt32 t.GenerationId) ;;
    (·.putString t.MemberId) ;;
    onlyIf (version ≥ 3) (·.putString t.GroupInstanceId)

/-- message/messages.gen.go:4311-4332 `HeartbeatRequest.Decode`; the second argument is the receiver. -/
def HeartbeatRequest.decode (version : Int16) : HeartbeatRequest → Dec HeartbeatRequest :=
    Dec.field Dec.string (fun t x => { t with GroupId := x }) ;>
    Dec.field Dec.int32 (fun t x => { t with GenerationId := x }) ;>
    Dec.field Dec.string (fun t x => { t with MemberId := x }) ;>
    Dec.onlyIf (version ≥ 3) (Dec.field Dec.string (fun t x => { t with GroupInstanceId := x }))

/-- The type `HeartbeatRequest` with its methods. -/
def HeartbeatRequest.type : MsgType :=
  { name := "HeartbeatRequest", T := HeartbeatRequest, zero := {}, size := HeartbeatRequest.size, encode := HeartbeatRequest.encode,
    decode := HeartbeatRequest.decode }

/-- message/messages.gen.go:4335-4338 `type HeartbeatResponse struct`; the defaults are the Go zero values. -/
@[ext] structure HeartbeatResponse where
  ThrottleTimeMs : Int32 := 0
  ErrorCode : Int16 := 0

/-- message/messages.gen.go:4341-4348 `HeartbeatResponse.Size` -/
def HeartbeatResponse.size (version : Int16) (_t : HeartbeatResponse) : Int32 :=
   (onlyIf (version ≥ 1) (Sizeof.add Sizeof.int32) ;;
    Sizeof.add Sizeof.int16) 0

/-- message/messages.gen.go:4351-4356 `HeartbeatResponse.Encode` -/
def HeartbeatResponse.encode (version : Int16) (t : HeartbeatResponse) : Encoder → Encoder :=
    onlyIf (version ≥ 1) (·.putInt32 t.ThrottleTimeMs) ;;
    (·.putInt16 t.ErrorCode)

/-- message/messages.gen.go:4359-4372 `HeartbeatResponse.Decode`; the second argument is the receiver. -/
def HeartbeatResponse.decode (version : Int16) : HeartbeatResponse → Dec HeartbeatResponse :=
    Dec.onlyIf (version ≥ 1) (Dec.field Dec.int32 (fun t x => { t with ThrottleTimeMs := x })) ;>
    Dec.field Dec.int16 (fun t x => { t with ErrorCode := x })

/-- The type `HeartbeatResponse` with its methods. -/
def HeartbeatResponse.type : MsgType :=
  { name := "HeartbeatResponse", T := HeartbeatResponse, zero := {}, size := HeartbeatResponse.size, encode := HeartbeatResponse.encode,
    decode := HeartbeatResponse.decode }

end Kafka.Msg
