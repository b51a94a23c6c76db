import Verif.Message.Steps
/-!
Generated by tools/gen_messages.py from message/messages.gen.go: model of the FindCoordinator messages.
-/
namespace Kafka.Msg

/-- message/messages.gen.go:3898-3901 `type FindCoordinatorRequest struct`; the defaults are the Go zero values. -/
@[ext] structure FindCoordinatorRequest where
  Key : GoString := []
  KeyType : Int8 := 0

/-- message/messages.gen.go:3904-3911 `FindCoordinatorRequest.Size` -/
def FindCoordinatorRequest.size (version : Int16) (t : FindCoordinatorRequest) : Int32 :=
   (Sizeof.add (Sizeof.string t.Key) ;;
    onlyIf (version ≥ 1) (Sizeof.add Sizeof.int8)) 0

/-- message/messages.gen.go:3914-3919 `FindCoordinatorRequest.Encode` -/
def FindCoordinatorRequest.encode (version : Int16) (t : FindCoordinatorRequest) : Encoder → Encoder :=
    (·.putString t.Key) ;;
    onlyIf (version ≥ 1) (·.putInt8 t.KeyType)

/-- message/messages.gen.go:3922-3935 `FindCoordinatorRequest.Decode`; the second argument is the receiver. -/
def FindCoordinatorRequest.decode (version : Int16) : FindCoordinatorRequest → Dec FindCoordinatorRequest :=
    Dec.field Dec.string (fun t x => { t with Key := x }) ;>
    Dec.onlyIf (version ≥ 1) (Dec.field Dec.int8 (fun t x => { t with KeyType := x }))

/-- The type `FindCoordinatorRequest` with its methods. -/
def FindCoordinatorRequest.type : MsgType :=
  { name := "FindCoordinatorRequest", T := FindCoordinatorRequest, zero := {}, size := FindCoordinatorRequest.size, encode := FindCoordinatorRequest.encode,
    decode := FindCoordinatorRequest.decode }

/-- message/messages.gen.go:3938-3945 `type FindCoordinatorResponse struct`; the defaults are the Go zero values. -/
@[ext] structure FindCoordinatorResponse where
  ThrottleTimeMs : Int32 := 0
  ErrorCode : Int16 := 0
  ErrorMessage : GoString := []
  NodeId : Int32 := 0
  Host : GoString := []
  Port : Int32 := 0

/-- message/messages.gen.go:3948-3961 `FindCoordinatorResponse.Size` -/
def FindCoordinatorResponse.size (version : Int16) (t : FindCoordinatorResponse) : Int32 :=
   (onlyIf (version ≥ 1) (Sizeof.add Sizeof.int32) ;;
    Sizeof.add Sizeof.int16 ;;
    onlyIf (version ≥ 1) (Sizeof.add (Sizeof.string t.ErrorMessage)) ;;
    Sizeof.add Sizeof.int32 ;;
    Sizeof.add (Sizeof.string t.Host) ;;
    Sizeof.add Sizeof.int32) 0

/-- message/messages.gen.go:3964-3975 `FindCoordinatorResponse.Encode` -/
def FindCoordinatorResponse.encode (version : Int16) (t : FindCoordinatorResponse) : Encoder → Encoder :=
    onlyIf (version ≥ 1) (·.putInt32 t.ThrottleTimeMs) ;;
    (·.putInt16 t.ErrorCode) ;;
    onlyIf (version ≥ 1) (·.putString t.ErrorMessage) ;;
    (·.putInt32 t.NodeId) ;;
    (·.putString t.Host) ;;
    (·.putInt32 t.Port)

/-- message/messages.gen.go:3978-4009 `FindCoordinatorResponse.Decode`; the second argument is the receiver. -/
def FindCoordinatorResponse.decode (version : Int16) : FindCoordinatorResponse → Dec FindCoordinatorResponse :=
    Dec.onlyIf (version ≥ 1) (Dec.field Dec.int32 (fun t x => { t with ThrottleTimeMs := x })) ;>
    Dec.field Dec.int16 (fun t x => { t with ErrorCode := x }) ;>
    Dec.onlyIf (version ≥ 1) (Dec.field Dec.string (fun t x => { t with ErrorMessage := x })) ;>
    Dec.field Dec.int32 (fun t x => { t with NodeId := x }) ;>
    Dec.field Dec.string (fun t x => { t with Host := x }) ;>
    Dec.field Dec.int32 (fun t x => { t with Port := x })

/-- The type `FindCoordinatorResponse` with its methods. -/
def FindCoordinatorResponse.type : MsgType :=
  { name := "FindCoordinatorResponse", T := FindCoordinatorResponse, zero := {}, size := FindCoordinatorResponse.size, encode := FindCoordinatorResponse.encode,
    decode := FindCoordinatorResponse.decode }

end Kafka.Msg
