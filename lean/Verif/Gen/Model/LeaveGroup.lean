import Verif.Message.Steps
/-!
Generated by tools/gen_messages.py from message/messages.gen.go: model of the LeaveGroup messages.
-/
namespace Kafka.Msg

/-- message/messages.gen.go:4444-4447 `type MemberIdentity13 struct`; the defaults are the Go zero values. -/
@[ext] structure MemberIdentity13 where
  MemberId : GoString := []
  GroupInstanceId : GoString := []

/-- message/messages.gen.go:4450-4459 `MemberIdentity13.Size` -/
def MemberIdentity13.size (version : Int16) (t : MemberIdentity13) : Int32 :=
   (onlyIf (version ≥ 3) (Sizeof.add (Sizeof.string t.MemberId)) ;;
    onlyIf (version ≥ 3) (Sizeof.add (Sizeof.string t.GroupInstanceId))) 0

/-- message/messages.gen.go:4462-4469 `MemberIdentity13.Encode` -/
def MemberIdentity13.encode (version : Int16) (t : MemberIdentity13) : Encoder → Encoder :=
    onlyIf (version ≥ 3) (·.putString t.MemberId) ;;
    onlyIf (version ≥ 3) (·.putString t.GroupInstanceId)

/-- message/messages.gen.go:4472-4487 `MemberIdentity13.Decode`; the second argument is the receiver. -/
def MemberIdentity13.decode (version : Int16) : MemberIdentity13 → Dec MemberIdentity13 :=
    Dec.onlyIf (version ≥ 3) (Dec.field Dec.string (fun t x => { t with MemberId := x })) ;>
    Dec.onlyIf (version ≥ 3) (Dec.field Dec.string (fun t x => { t with GroupInstanceId := x }))

/-- The type `MemberIdentity13` with its methods. -/
def MemberIdentity13.type : MsgType :=
  { name := "MemberIdentity13", T := MemberIdentity13, zero := {}, size := MemberIdentity13.size, encode := MemberIdentity13.encode,
    decode := MemberIdentity13.decode }

/-- message/messages.gen.go:4375-4379 `type LeaveGroupRequest struct`; the defaults are the Go zero values. -/
@[ext] structure LeaveGroupRequest where
  GroupId : GoString := []
  MemberId : GoString := []
  Members : Slice MemberIdentity13 := none

/-- message/messages.gen.go:4382-4395 `LeaveGroupRequest.Size` -/
def LeaveGroupRequest.size (version : Int16) (t : LeaveGroupRequest) : Int32 :=
   (Sizeof.add (Sizeof.string t.GroupId) ;;
    onlyIf (version ≥ 0 ∧ version ≤ 2) (Sizeof.add (Sizeof.string t.MemberId)) ;;
    onlyIf (version ≥ 3) (Sizeof.structs (MemberIdentity13.size version) t.Members)) 0

/-- message/messages.gen.go:4398-4411 `LeaveGroupRequest.Encode` -/
def LeaveGroupRequest.encode (version : Int16) (t : LeaveGroupRequest) : Encoder → Encoder :=
    (·.putString t.GroupId) ;;
    onlyIf (version ≥ 0 ∧ version ≤ 2) (·.putString t.MemberId) ;;
    onlyIf (version ≥ 3) (Encoder.putStructs (MemberIdentity13.encode version) t.Members)

/-- message/messages.gen.go:4414-4442 `LeaveGroupRequest.Decode`; the second argument is the receiver. -/
def LeaveGroupRequest.decode (version : Int16) : LeaveGroupRequest → Dec LeaveGroupRequest :=
    Dec.field Dec.string (fun t x => { t with GroupId := x }) ;>
    Dec.onlyIf (version ≥ 0 ∧ version ≤ 2) (Dec.field Dec.string (fun t x => { t with MemberId := x })) ;>
    Dec.onlyIf (version ≥ 3) (Dec.fieldStructs (MemberIdentity13.decode version {}) (·.Members) (fun t x => { t with Members := x }))

/-- The type `LeaveGroupRequest` with its methods. -/
def LeaveGroupRequest.type : MsgType :=
  { name := "LeaveGroupRequest", T := LeaveGroupRequest, zero := {}, size := LeaveGroupRequest.size, encode := LeaveGroupRequest.encode,
    decode := LeaveGroupRequest.decode }

/-- message/messages.gen.go:4559-4563 `type MemberResponse13 struct`; the defaults are the Go zero values. -/
@[ext] structure MemberResponse13 where
  MemberId : GoString := []
  GroupInstanceId : GoString := []
  ErrorCode : Int16 := 0

/-- message/messages.gen.go:4566-4578 `MemberResponse13.Size` -/
def MemberResponse13.size (version : Int16) (t : MemberResponse13) : Int32 :=
   (onlyIf (version ≥ 3) (Sizeof.add (Sizeof.string t.MemberId)) ;;
    onlyIf (version ≥ 3) (Sizeof.add (Sizeof.string t.GroupInstanceId)) ;;
    onlyIf (version ≥ 3) (Sizeof.add Sizeof.int16)) 0

/-- message/messages.gen.go:4581-4591 `MemberResponse13.Encode` -/
def MemberResponse13.encode (version : Int16) (t : MemberResponse13) : Encoder → Encoder :=
    onlyIf (version ≥ 3) (·.putString t.MemberId) ;;
    onlyIf (version ≥ 3) (·.putString t.GroupInstanceId) ;;
    onlyIf (version ≥ 3) (·.putInt16 t.ErrorCode)

/-- message/messages.gen.go:4594-4615 `MemberResponse13.Decode`; the second argument is the receiver. -/
def MemberResponse13.decode (version : Int16) : MemberResponse13 → Dec MemberResponse13 :=
    Dec.onlyIf (version ≥ 3) (Dec.field Dec.string (fun t x => { t with MemberId := x })) ;>
    Dec.onlyIf (version ≥ 3) (Dec.field Dec.string (fun t x => { t with GroupInstanceId := x })) ;>
    Dec.onlyIf (version ≥ 3) (Dec.field Dec.int16 (fun t x => { t with ErrorCode := x }))

/-- The type `MemberResponse13` with its methods. -/
def MemberResponse13.type : MsgType :=
  { name := "MemberResponse13", T := MemberResponse13, zero := {}, size := MemberResponse13.size, encode := MemberResponse13.encode,
    decode := MemberResponse13.decode }

/-- message/messages.gen.go:4490-4494 `type LeaveGroupResponse struct`; the defaults are the Go zero values. -/
@[ext] structure LeaveGroupResponse where
  ThrottleTimeMs : Int32 := 0
  ErrorCode : Int16 := 0
  Members : Slice MemberResponse13 := none

/-- message/messages.gen.go:4497-4510 `LeaveGroupResponse.Size` -/
def LeaveGroupResponse.size (version : Int16) (t : LeaveGroupResponse) : Int32 :=
   (onlyIf (version ≥ 1) (Sizeof.add Sizeof.int32) ;;
    Sizeof.add Sizeof.int16 ;;
    onlyIf (version ≥ 3) (Sizeof.structs (MemberResponse13.size version) t.Members)) 0

/-- message/messages.gen.go:4513-4526 `LeaveGroupResponse.Encode` -/
def LeaveGroupResponse.encode (version : Int16) (t : LeaveGroupResponse) : Encoder → Encoder :=
    onlyIf (version ≥ 1) (·.putInt32 t.ThrottleTimeMs) ;;
    (·.putInt16 t.ErrorCode) ;;
    onlyIf (version ≥ 3) (Encoder.putStructs (MemberResponse13.encode version) t.Members)

/-- message/messages.gen.go:4529-4557 `LeaveGroupResponse.Decode`; the second argument is the receiver. -/
def LeaveGroupResponse.decode (version : Int16) : LeaveGroupResponse → Dec LeaveGroupResponse :=
    Dec.onlyIf (version ≥ 1) (Dec.field Dec.int32 (fun t x => { t with ThrottleTimeMs := x })) ;>
    Dec.field Dec.int16 (fun t x => { t with ErrorCode := x }) ;>
    Dec.onlyIf (version ≥ 3) (Dec.fieldStructs (MemberResponse13.decode version {}) (·.Members) (fun t x => { t with Members := x }))

/-- The type `LeaveGroupResponse` with its methods. -/
def LeaveGroupResponse.type : MsgType :=
  { name := "LeaveGroupResponse", T := LeaveGroupResponse, zero := {}, size := LeaveGroupResponse.size, encode := LeaveGroupResponse.encode,
    decode := LeaveGroupResponse.decode }

end Kafka.Msg
