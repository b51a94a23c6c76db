import Verif.Message.Steps
/-!
Generated by tools/gen_messages.py from message/messages.gen.go: model of the DeleteTopics messages.
-/
namespace Kafka.Msg

/-- message/messages.gen.go:5833-5836 `type DeleteTopicsRequest struct`; the defaults are the Go zero values. -/
@[ext] structure DeleteTopicsRequest where
  TopicNames : Slice GoString := none
  TimeoutMs : Int32 := 0

/-- message/messages.gen.go:5839-5844 `DeleteTopicsRequest.Size` -/
def DeleteTopicsRequest.size (_version : Int16) (t : DeleteTopicsRequest) : Int32 :=
   (Sizeof.add (Sizeof.stringArray t.TopicNames) ;;
    Sizeof.add Sizeof.int32) 0

/-- message/messages.gen.go:5847-5850 `DeleteTopicsRequest.Encode` -/
def DeleteTopicsRequest.encode (_version : Int16) (t : DeleteTopicsRequest) : Encoder → Encoder :=
    (·.putStringArray t.TopicNames) ;;
    (·.putInt32 t.TimeoutMs)

/-- message/messages.gen.go:5853-5864 `DeleteTopicsRequest.Decode`; the second argument is the receiver. -/
def DeleteTopicsRequest.decode (_version : Int16) : DeleteTopicsRequest → Dec DeleteTopicsRequest :=
    Dec.field Dec.stringArray (fun t x => { t with TopicNames := x }) ;>
    Dec.field Dec.int32 (fun t x => { t with TimeoutMs := x })

/-- The type `DeleteTopicsRequest` with its methods. -/
def DeleteTopicsRequest.type : MsgType :=
  { name := "DeleteTopicsRequest", T := DeleteTopicsRequest, zero := {}, size := DeleteTopicsRequest.size, encode := DeleteTopicsRequest.encode,
    decode := DeleteTopicsRequest.decode }

/-- message/messages.gen.go:5923-5926 `type DeletableTopicResult20 struct`; the defaults are the Go zero values. -/
@[ext] structure DeletableTopicResult20 where
  Name : GoString := []
  ErrorCode : Int16 := 0

/-- message/messages.gen.go:5929-5934 `DeletableTopicResult20.Size` -/
def DeletableTopicResult20.size (_version : Int16) (t : DeletableTopicResult20) : Int32 :=
   (Sizeof.add (Sizeof.string t.Name) ;;
    Sizeof.add Sizeof.int16) 0

/-- message/messages.gen.go:5937-5940 `DeletableTopicResult20.Encode` -/
def DeletableTopicResult20.encode (_version : Int16) (t : DeletableTopicResult20) : Encoder → Encoder :=
    (·.putString t.Name) ;;
    (·.putInt16 t.ErrorCode)

/-- message/messages.gen.go:5943-5954 `DeletableTopicResult20.Decode`; the second argument is the receiver. -/
def DeletableTopicResult20.decode (_version : Int16) : DeletableTopicResult20 → Dec DeletableTopicResult20 :=
    Dec.field Dec.string (fun t x => { t with Name := x }) ;>
    Dec.field Dec.int16 (fun t x => { t with ErrorCode := x })

/-- The type `DeletableTopicResult20` with its methods. -/
def DeletableTopicResult20.type : MsgType :=
  { name := "DeletableTopicResult20", T := DeletableTopicResult20, zero := {}, size := DeletableTopicResult20.size, encode := DeletableTopicResult20.encode,
    decode := DeletableTopicResult20.decode }

/-- message/messages.gen.go:5867-5870 `type DeleteTopicsResponse struct`; the defaults are the Go zero values. -/
@[ext] structure DeleteTopicsResponse where
  ThrottleTimeMs : Int32 := 0
  Responses : Slice DeletableTopicResult20 := none

/-- message/messages.gen.go:5873-5883 `DeleteTopicsResponse.Size` -/
def DeleteTopicsResponse.size (version : Int16) (t : DeleteTopicsResponse) : Int32 :=
   (onlyIf (version ≥ 1) (Sizeof.add Sizeof.int32) ;;
    Sizeof.structs (DeletableTopicResult20.size version) t.Responses) 0

/-- message/messages.gen.go:5886-5896 `DeleteTopicsResponse.Encode` -/
def DeleteTopicsResponse.encode (version : Int16) (t : DeleteTopicsResponse) : Encoder → Encoder :=
    onlyIf (version ≥ 1) (·.putInt32 t.ThrottleTimeMs) ;;
    Encoder.putStructs (DeletableTopicResult20.encode version) t.Responses

/-- message/messages.gen.go:5899-5921 `DeleteTopicsResponse.Decode`; the second argument is the receiver. -/
def DeleteTopicsResponse.decode (version : Int16) : DeleteTopicsResponse → Dec DeleteTopicsResponse :=
    Dec.onlyIf (version ≥ 1) (Dec.field Dec.int32 (fun t x => { t with ThrottleTimeMs := x })) ;>
    Dec.fieldStructs (DeletableTopicResult20.decode version {}) (·.Responses) (fun t x => { t with Responses := x })

/-- The type `DeleteTopicsResponse` with its methods. -/
def DeleteTopicsResponse.type : MsgType :=
  { name := "DeleteTopicsResponse", T := DeleteTopicsResponse, zero := {}, size := DeleteTopicsResponse.size, encode := DeleteTopicsResponse.encode,
    decode := DeleteTopicsResponse.decode }

end Kafka.Msg
