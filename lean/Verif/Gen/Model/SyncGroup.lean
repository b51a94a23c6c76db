import Verif.Message.Steps
/-!
Generated by tools/gen_messages.py from message/messages.gen.go: model of the SyncGroup messages.
-/
namespace Kafka.Msg

/-- message/messages.gen.go:4695-4698 `type SyncGroupRequestAssignment14 struct`; the defaults are the Go zero values. -/
@[ext] structure SyncGroupRequestAssignment14 where
  MemberId : GoString := []
  Assignment : Slice Byte := none

/-- message/messages.gen.go:4701-4706 `SyncGroupRequestAssignment14.Size` -/
def SyncGroupRequestAssignment14.size (_version : Int16) (t : SyncGroupRequestAssignment14) : Int32 :=
   (Sizeof.add (Sizeof.string t.MemberId) ;;
    Sizeof.add (Sizeof.bytes t.Assignment)) 0

/-- message/messages.gen.go:4709-4712 `SyncGroupRequestAssignment14.Encode` -/
def SyncGroupRequestAssignment14.encode (_version : Int16) (t : SyncGroupRequestAssignment14) : Encoder → Encoder :=
    (·.putString t.MemberId) ;;
    (·.putBytes t.Assignment)

/-- message/messages.gen.go:4715-4726 `SyncGroupRequestAssignment14.Decode`; the second argument is the receiver. -/
def SyncGroupRequestAssignment14.decode (_version : Int16) : SyncGroupRequestAssignment14 → Dec SyncGroupRequestAssignment14 :=
    Dec.field Dec.string (fun t x => { t with MemberId := x }) ;>
    Dec.field Dec.bytes (fun t x => { t with Assignment := x })

/-- The type `SyncGroupRequestAssignment14` with its methods. -/
def SyncGroupRequestAssignment14.type : MsgType :=
  { name := "SyncGroupRequestAssignment14", T := SyncGroupRequestAssignment14, zero := {}, size := SyncGroupRequestAssignment14.size, encode := SyncGroupRequestAssignment14.encode,
    decode := SyncGroupRequestAssignment14.decode }

/-- message/messages.gen.go:4618-4624 `type SyncGroupRequest struct`; the defaults are the Go zero values. -/
@[ext] structure SyncGroupRequest where
  GroupId : GoString := []
  GenerationId : Int32 := 0
  MemberId : GoString := []
  GroupInstanceId : GoString := []
  Assignments : Slice SyncGroupRequestAssignment14 := none

/-- message/messages.gen.go:4627-4640 `SyncGroupRequest.Size` -/
def SyncGroupRequest.size (version : Int16) (t : SyncGroupRequest) : Int32 :=
   (Sizeof.add (Sizeof.string t.GroupId) ;;
    Sizeof.add Sizeof.int32 ;;
    Sizeof.add (Sizeof.string t.MemberId) ;;
    onlyIf (version ≥ 3) (Sizeof.add (Sizeof.string t.GroupInstanceId)) ;;
    Sizeof.structs (SyncGroupRequestAssignment14.size version) t.Assignments) 0

/-- message/messages.gen.go:4643-4656 `SyncGroupRequest.Encode` -/
def SyncGroupRequest.encode (version : Int16) (t : SyncGroupRequest) : Encoder → Encoder :=
    (·.putString t.GroupId) ;;
    (·.putInt32 t.GenerationId) ;;
    (·.putString t.MemberId) ;;
    onlyIf (version ≥ 3) (·.putString t.GroupInstanceId) ;;
    Encoder.putStructs (SyncGroupRequestAssignment14.encode version) t.Assignments

/-- message/messages.gen.go:4659-4693 `SyncGroupRequest.Decode`; the second argument is the receiver. -/
def SyncGroupRequest.decode (version : Int16) : SyncGroupRequest → Dec SyncGroupRequest :=
    Dec.field Dec.string (fun t x => { t with GroupId := x }) ;>
    Dec.field Dec.int32 (fun t x => { t with GenerationId := x }) ;>
    Dec.field Dec.string (fun t x => { t with MemberId := x }) ;>
    Dec.onlyIf (version ≥ 3) (Dec.field Dec.string (fun t x => { t with GroupInstanceId := x })) ;>
    Dec.fieldStructs (SyncGroupRequestAssignment14.decode version {}) (·.Assignments) (fun t x => { t with Assignments := x })

/-- The type `SyncGroupRequest` with its methods. -/
def SyncGroupRequest.type : MsgType :=
  { name := "SyncGroupRequest", T := SyncGroupRequest, zero := {}, size := SyncGroupRequest.size, encode := SyncGroupRequest.encode,
    decode := SyncGroupRequest.decode }

/-- message/messages.gen.go:4729-4733 `type SyncGroupResponse struct`; the defaults are the Go zero values. -/
@[ext] structure SyncGroupResponse where
  ThrottleTimeMs : Int32 := 0
  ErrorCode : Int16 := 0
  Assignment : Slice Byte := none

/-- message/messages.gen.go:4736-4744 `SyncGroupResponse.Size` -/
def SyncGroupResponse.size (version : Int16) (t : SyncGroupResponse) : Int32 :=
   (onlyIf (version ≥ 1) (Sizeof.add Sizeof.int32) ;;
    Sizeof.add Sizeof.int16 ;;
    Sizeof.add (Sizeof.bytes t.Assignment)) 0

/-- message/messages.gen.go:4747-4753 `SyncGroupResponse.Encode` -/
def SyncGroupResponse.encode (version : Int16) (t : SyncGroupResponse) : Encoder → Encoder :=
    onlyIf (version ≥ 1) (·.putInt32 t.ThrottleTimeMs) ;;
    (·.putInt16 t.ErrorCode) ;;
    (·.putBytes t.Assignment)

/-- message/messages.gen.go:4756-4773 `SyncGroupResponse.Decode`; the second argument is the receiver. -/
def SyncGroupResponse.decode (version : Int16) : SyncGroupResponse → Dec SyncGroupResponse :=
    Dec.onlyIf (version ≥ 1) (Dec.field Dec.int32 (fun t x => { t with ThrottleTimeMs := x })) ;>
    Dec.field Dec.int16 (fun t x => { t with ErrorCode := x }) ;>
    Dec.field Dec.bytes (fun t x => { t with Assignment := x })

/-- The type `SyncGroupResponse` with its methods. -/
def SyncGroupResponse.type : MsgType :=
  { name := "SyncGroupResponse", T := SyncGroupResponse, zero := {}, size := SyncGroupResponse.size, encode := SyncGroupResponse.encode,
    decode := SyncGroupResponse.decode }

end Kafka.Msg
