import Verif.Message.Steps
/-!
Generated by tools/gen_messages.py from message/messages.gen.go: model of the AlterConfigs messages.
-/
namespace Kafka.Msg

/-- message/messages.gen.go:8917-8920 `type AlterableConfig33 struct`; the defaults are the Go zero values. -/
@[ext] structure AlterableConfig33 where
  Name : GoString := []
  Value : GoString := []

/-- message/messages.gen.go:8923-8928 `AlterableConfig33.Size` -/
def AlterableConfig33.size (_version : Int16) (t : AlterableConfig33) : Int32 :=
   (Sizeof.add (Sizeof.string t.Name) ;;
    Sizeof.add (Sizeof.string t.Value)) 0

/-- message/messages.gen.go:8931-8934 `AlterableConfig33.Encode` -/
def AlterableConfig33.encode (_version : Int16) (t : AlterableConfig33) : Encoder → Encoder :=
    (·.putString t.Name) ;;
    (·.putString t.Value)

/-- message/messages.gen.go:8937-8948 `AlterableConfig33.Decode`; the second argument is the receiver. -/
def AlterableConfig33.decode (_version : Int16) : AlterableConfig33 → Dec AlterableConfig33 :=
    Dec.field Dec.string (fun t x => { t with Name := x }) ;>
    Dec.field Dec.string (fun t x => { t with Value := x })

/-- The type `AlterableConfig33` with its methods. -/
def AlterableConfig33.type : MsgType :=
  { name := "AlterableConfig33", T := AlterableConfig33, zero := {}, size := AlterableConfig33.size, encode := AlterableConfig33.encode,
    decode := AlterableConfig33.decode }

/-- message/messages.gen.go:8860-8864 `type AlterConfigsResource33 struct`; the defaults are the Go zero values. -/
@[ext] structure AlterConfigsResource33 where
  ResourceType : Int8 := 0
  ResourceName : GoString := []
  Configs : Slice AlterableConfig33 := none

/-- message/messages.gen.go:8867-8876 `AlterConfigsResource33.Size` -/
def AlterConfigsResource33.size (version : Int16) (t : AlterConfigsResource33) : Int32 :=
   (Sizeof.add Sizeof.int8 ;;
    Sizeof.add (Sizeof.string t.ResourceName) ;;
    Sizeof.structs (AlterableConfig33.size version) t.Configs) 0

/-- message/messages.gen.go:8879-8888 `AlterConfigsResource33.Encode` -/
def AlterConfigsResource33.encode (version : Int16) (t : AlterConfigsResource33) : Encoder → Encoder :=
    (·.putInt8 t.ResourceType) ;;
    (·.putString t.ResourceName) ;;
    Encoder.putStructs (AlterableConfig33.encode version) t.Configs

/-- message/messages.gen.go:8891-8915 `AlterConfigsResource33.Decode`; the second argument is the receiver. -/
def AlterConfigsResource33.decode (version : Int16) : AlterConfigsResource33 → Dec AlterConfigsResource33 :=
    Dec.field Dec.int8 (fun t x => { t with ResourceType := x }) ;>
    Dec.field Dec.string (fun t x => { t with ResourceName := x }) ;>
    Dec.fieldStructs (AlterableConfig33.decode version {}) (·.Configs) (fun t x => { t with Configs := x })

/-- The type `AlterConfigsResource33` with its methods. -/
def AlterConfigsResource33.type : MsgType :=
  { name := "AlterConfigsResource33", T := AlterConfigsResource33, zero := {}, size := AlterConfigsResource33.size, encode := AlterConfigsResource33.encode,
    decode := AlterConfigsResource33.decode }

/-- message/messages.gen.go:8810-8813 `type AlterConfigsRequest struct`; the defaults are the Go zero values. -/
@[ext] structure AlterConfigsRequest where
  Resources : Slice AlterConfigsResource33 := none
  ValidateOnly : Bool := false

/-- message/messages.gen.go:8816-8824 `AlterConfigsRequest.Size` -/
def AlterConfigsRequest.size (version : Int16) (t : AlterConfigsRequest) : Int32 :=
   (Sizeof.structs (AlterConfigsResource33.size version) t.Resources ;;
    Sizeof.add Sizeof.bool) 0

/-- message/messages.gen.go:8827-8835 `AlterConfigsRequest.Encode` -/
def AlterConfigsRequest.encode (version : Int16) (t : AlterConfigsRequest) : Encoder → Encoder :=
    Encoder.putStructs (AlterConfigsResource33.encode version) t.Resources ;;
    (·.putBool t.ValidateOnly)

/-- message/messages.gen.go:8838-8858 `AlterConfigsRequest.Decode`; the second argument is the receiver. -/
def AlterConfigsRequest.decode (version : Int16) : AlterConfigsRequest → Dec AlterConfigsRequest :=
    Dec.fieldStructs (AlterConfigsResource33.decode version {}) (·.Resources) (fun t x => { t with Resources := x }) ;>
    Dec.field Dec.bool (fun t x => { t with ValidateOnly := x })

/-- The type `AlterConfigsRequest` with its methods. -/
def AlterConfigsRequest.type : MsgType :=
  { name := "AlterConfigsRequest", T := AlterConfigsRequest, zero := {}, size := AlterConfigsRequest.size, encode := AlterConfigsRequest.encode,
    decode := AlterConfigsRequest.decode }

/-- message/messages.gen.go:9001-9006 `type AlterConfigsResourceResponse33 struct`; the defaults are the Go zero values. -/
@[ext] structure AlterConfigsResourceResponse33 where
  ErrorCode : Int16 := 0
  ErrorMessage : GoString := []
  ResourceType : Int8 := 0
  ResourceName : GoString := []

/-- message/messages.gen.go:9009-9016 `AlterConfigsResourceResponse33.Size` -/
def AlterConfigsResourceResponse33.size (_version : Int16) (t : AlterConfigsResourceResponse33) : Int32 :=
   (Sizeof.add Sizeof.int16 ;;
    Sizeof.add (Sizeof.string t.ErrorMessage) ;;
    Sizeof.add Sizeof.int8 ;;
    Sizeof.add (Sizeof.string t.ResourceName)) 0

/-- message/messages.gen.go:9019-9024 `AlterConfigsResourceResponse33.Encode` -/
def AlterConfigsResourceResponse33.encode (_version : Int16) (t : AlterConfigsResourceResponse33) : Encoder → Encoder :=
    (·.putInt16 t.ErrorCode) ;;
    (·.putString t.ErrorMessage) ;;
    (·.putInt8 t.ResourceType) ;;
    (·.putString t.ResourceName)

/-- message/messages.gen.go:9027-9046 `AlterConfigsResourceResponse33.Decode`; the second argument is the receiver. -/
def AlterConfigsResourceResponse33.decode (_version : Int16) : AlterConfigsResourceResponse33 → Dec AlterConfigsResourceResponse33 :=
    Dec.field Dec.int16 (fun t x => { t with ErrorCode := x }) ;>
    Dec.field Dec.string (fun t x => { t with ErrorMessage := x }) ;>
    Dec.field Dec.int8 (fun t x => { t with ResourceType := x }) ;>
    Dec.field Dec.string (fun t x => { t with ResourceName := x })

/-- The type `AlterConfigsResourceResponse33` with its methods. -/
def AlterConfigsResourceResponse33.type : MsgType :=
  { name := "AlterConfigsResourceResponse33", T := AlterConfigsResourceResponse33, zero := {}, size := AlterConfigsResourceResponse33.size, encode := AlterConfigsResourceResponse33.encode,
    decode := AlterConfigsResourceResponse33.decode }

/-- message/messages.gen.go:8951-8954 `type AlterConfigsResponse struct`; the defaults are the Go zero values. -/
@[ext] structure AlterConfigsResponse where
  ThrottleTimeMs : Int32 := 0
  Responses : Slice AlterConfigsResourceResponse33 := none

/-- message/messages.gen.go:8957-8965 `AlterConfigsResponse.Size` -/
def AlterConfigsResponse.size (version : Int16) (t : AlterConfigsResponse) : Int32 :=
   (Sizeof.add Sizeof.int32 ;;
    Sizeof.structs (AlterConfigsResourceResponse33.size version) t.Responses) 0

/-- message/messages.gen.go:8968-8976 `AlterConfigsResponse.Encode` -/
def AlterConfigsResponse.encode (version : Int16) (t : AlterConfigsResponse) : Encoder → Encoder :=
    (·.putInt32 t.ThrottleTimeMs) ;;
    Encoder.putStructs (AlterConfigsResourceResponse33.encode version) t.Responses

/-- message/messages.gen.go:8979-8999 `AlterConfigsResponse.Decode`; the second argument is the receiver. -/
def AlterConfigsResponse.decode (version : Int16) : AlterConfigsResponse → Dec AlterConfigsResponse :=
    Dec.field Dec.int32 (fun t x => { t with ThrottleTimeMs := x }) ;>
    Dec.fieldStructs (AlterConfigsResourceResponse33.decode version {}) (·.Responses) (fun t x => { t with Responses := x })

/-- The type `AlterConfigsResponse` with its methods. -/
def AlterConfigsResponse.type : MsgType :=
  { name := "AlterConfigsResponse", T := AlterConfigsResponse, zero := {}, size := AlterConfigsResponse.size, encode := AlterConfigsResponse.encode,
    decode := AlterConfigsResponse.decode }

end Kafka.Msg
