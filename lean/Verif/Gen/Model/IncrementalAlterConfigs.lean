import Verif.Message.Steps
/-!
Generated by tools/gen_messages.py from message/messages.gen.go: model of the IncrementalAlterConfigs messages.
-/
namespace Kafka.Msg

/-- message/messages.gen.go:10951-10955 `type AlterableConfig44 struct`; the defaults are the Go zero values. -/
@[ext] structure AlterableConfig44 where
  Name : GoString := []
  ConfigOperation : Int8 := 0
  Value : GoString := []

/-- message/messages.gen.go:10958-10964 `AlterableConfig44.Size` -/
def AlterableConfig44.size (_version : Int16) (t : AlterableConfig44) : Int32 :=
   (Sizeof.add (Sizeof.string t.Name) ;;
    Sizeof.add Sizeof.int8 ;;
    Sizeof.add (Sizeof.string t.Value)) 0

/-- message/messages.gen.go:10967-10971 `AlterableConfig44.Encode` -/
def AlterableConfig44.encode (_version : Int16) (t : AlterableConfig44) : Encoder → Encoder :=
    (·.putString t.Name) ;;
    (·.putInt8 t.ConfigOperation) ;;
    (·.putString t.Value)

/-- message/messages.gen.go:10974-10989 `AlterableConfig44.Decode`; the second argument is the receiver. -/
def AlterableConfig44.decode (_version : Int16) : AlterableConfig44 → Dec AlterableConfig44 :=
    Dec.field Dec.string (fun t x => { t with Name := x }) ;>
    Dec.field Dec.int8 (fun t x => { t with ConfigOperation := x }) ;>
    Dec.field Dec.string (fun t x => { t with Value := x })

/-- The type `AlterableConfig44` with its methods. -/
def AlterableConfig44.type : MsgType :=
  { name := "AlterableConfig44", T := AlterableConfig44, zero := {}, size := AlterableConfig44.size, encode := AlterableConfig44.encode,
    decode := AlterableConfig44.decode }

/-- message/messages.gen.go:10894-10898 `type AlterConfigsResource44 struct`; the defaults are the Go zero values. -/
@[ext] structure AlterConfigsResource44 where
  ResourceType : Int8 := 0
  ResourceName : GoString := []
  Configs : Slice AlterableConfig44 := none

/-- message/messages.gen.go:10901-10910 `AlterConfigsResource44.Size` -/
def AlterConfigsResource44.size (version : Int16) (t : AlterConfigsResource44) : Int32 :=
   (Sizeof.add Sizeof.int8 ;;
    Sizeof.add (Sizeof.string t.ResourceName) ;;
    Sizeof.structs (AlterableConfig44.size version) t.Configs) 0

/-- message/messages.gen.go:10913-10922 `AlterConfigsResource44.Encode` -/
def AlterConfigsResource44.encode (version : Int16) (t : AlterConfigsResource44) : Encoder → Encoder :=
    (·.putInt8 t.ResourceType) ;;
    (·.putString t.ResourceName) ;;
    Encoder.putStructs (AlterableConfig44.encode version) t.Configs

/-- message/messages.gen.go:10925-10949 `AlterConfigsResource44.Decode`; the second argument is the receiver. -/
def AlterConfigsResource44.decode (version : Int16) : AlterConfigsResource44 → Dec AlterConfigsResource44 :=
    Dec.field Dec.int8 (fun t x => { t with ResourceType := x }) ;>
    Dec.field Dec.string (fun t x => { t with ResourceName := x }) ;>
    Dec.fieldStructs (AlterableConfig44.decode version {}) (·.Configs) (fun t x => { t with Configs := x })

/-- The type `AlterConfigsResource44` with its methods. -/
def AlterConfigsResource44.type : MsgType :=
  { name := "AlterConfigsResource44", T := AlterConfigsResource44, zero := {}, size := AlterConfigsResource44.size, encode := AlterConfigsResource44.encode,
    decode := AlterConfigsResource44.decode }

/-- message/messages.gen.go:10844-10847 `type IncrementalAlterConfigsRequest struct`; the defaults are the Go zero values. -/
@[ext] structure IncrementalAlterConfigsRequest where
  Resources : Slice AlterConfigsResource44 := none
  ValidateOnly : Bool := false

/-- message/messages.gen.go:10850-10858 `IncrementalAlterConfigsRequest.Size` -/
def IncrementalAlterConfigsRequest.size (version : Int16) (t : IncrementalAlterConfigsRequest) : Int32 :=
   (Sizeof.structs (AlterConfigsResource44.size version) t.Resources ;;
    Sizeof.add Sizeof.bool) 0

/-- message/messages.gen.go:10861-10869 `IncrementalAlterConfigsRequest.Encode` -/
def IncrementalAlterConfigsRequest.encode (version : Int16) (t : IncrementalAlterConfigsRequest) : Encoder → Encoder :=
    Encoder.putStructs (AlterConfigsResource44.encode version) t.Resources ;;
    (·.putBool t.ValidateOnly)

/-- message/messages.gen.go:10872-10892 `IncrementalAlterConfigsRequest.Decode`; the second argument is the receiver. -/
def IncrementalAlterConfigsRequest.decode (version : Int16) : IncrementalAlterConfigsRequest → Dec IncrementalAlterConfigsRequest :=
    Dec.fieldStructs (AlterConfigsResource44.decode version {}) (·.Resources) (fun t x => { t with Resources := x }) ;>
    Dec.field Dec.bool (fun t x => { t with ValidateOnly := x })

/-- The type `IncrementalAlterConfigsRequest` with its methods. -/
def IncrementalAlterConfigsRequest.type : MsgType :=
  { name := "IncrementalAlterConfigsRequest", T := IncrementalAlterConfigsRequest, zero := {}, size := IncrementalAlterConfigsRequest.size, encode := IncrementalAlterConfigsRequest.encode,
    decode := IncrementalAlterConfigsRequest.decode }

/-- message/messages.gen.go:11042-11047 `type AlterConfigsResourceResponse44 struct`; the defaults are the Go zero values. -/
@[ext] structure AlterConfigsResourceResponse44 where
  ErrorCode : Int16 := 0
  ErrorMessage : GoString := []
  ResourceType : Int8 := 0
  ResourceName : GoString := []

/-- message/messages.gen.go:11050-11057 `AlterConfigsResourceResponse44.Size` -/
def AlterConfigsResourceResponse44.size (_version : Int16) (t : AlterConfigsResourceResponse44) : Int32 :=
   (Sizeof.add Sizeof.int16 ;;
    Sizeof.add (Sizeof.string t.ErrorMessage) ;;
    Sizeof.add Sizeof.int8 ;;
    Sizeof.add (Sizeof.string t.ResourceName)) 0

/-- message/messages.gen.go:11060-11065 `AlterConfigsResourceResponse44.Encode` -/
def AlterConfigsResourceResponse44.encode (_version : Int16) (t : AlterConfigsResourceResponse44) : Encoder → Encoder :=
    (·.putInt16 t.ErrorCode) ;;
    (·.putString t.ErrorMessage) ;;
    (·.putInt8 t.ResourceType) ;;
    (·.putString t.ResourceName)

/-- message/messages.gen.go:11068-11087 `AlterConfigsResourceResponse44.Decode`; the second argument is the receiver. -/
def AlterConfigsResourceResponse44.decode (_version : Int16) : AlterConfigsResourceResponse44 → Dec AlterConfigsResourceResponse44 :=
    Dec.field Dec.int16 (fun t x => { t with ErrorCode := x }) ;>
    Dec.field Dec.string (fun t x => { t with ErrorMessage := x }) ;>
    Dec.field Dec.int8 (fun t x => { t with ResourceType := x }) ;>
    Dec.field Dec.string (fun t x => { t with ResourceName := x })

/-- The type `AlterConfigsResourceResponse44` with its methods. -/
def AlterConfigsResourceResponse44.type : MsgType :=
  { name := "AlterConfigsResourceResponse44", T := AlterConfigsResourceResponse44, zero := {}, size := AlterConfigsResourceResponse44.size, encode := AlterConfigsResourceResponse44.encode,
    decode := AlterConfigsResourceResponse44.decode }

/-- message/messages.gen.go:10992-10995 `type IncrementalAlterConfigsResponse struct`; the defaults are the Go zero values. -/
@[ext] structure IncrementalAlterConfigsResponse where
  ThrottleTimeMs : Int32 := 0
  Responses : Slice AlterConfigsResourceResponse44 := none

/-- message/messages.gen.go:10998-11006 `IncrementalAlterConfigsResponse.Size` -/
def IncrementalAlterConfigsResponse.size (version : Int16) (t : IncrementalAlterConfigsResponse) : Int32 :=
   (Sizeof.add Sizeof.int32 ;;
    Sizeof.structs (AlterConfigsResourceResponse44.size version) t.Responses) 0

/-- message/messages.gen.go:11009-11017 `IncrementalAlterConfigsResponse.Encode` -/
def IncrementalAlterConfigsResponse.encode (version : Int16) (t : IncrementalAlterConfigsResponse) : Encoder → Encoder :=
    (·.putInt32 t.ThrottleTimeMs) ;;
    Encoder.putStructs (AlterConfigsResourceResponse44.encode version) t.Responses

/-- message/messages.gen.go:11020-11040 `IncrementalAlterConfigsResponse.Decode`; the second argument is the receiver. -/
def IncrementalAlterConfigsResponse.decode (version : Int16) : IncrementalAlterConfigsResponse → Dec IncrementalAlterConfigsResponse :=
    Dec.field Dec.int32 (fun t x => { t with ThrottleTimeMs := x }) ;>
    Dec.fieldStructs (AlterConfigsResourceResponse44.decode version {}) (·.Responses) (fun t x => { t with Responses := x })

/-- The type `IncrementalAlterConfigsResponse` with its methods. -/
def IncrementalAlterConfigsResponse.type : MsgType :=
  { name := "IncrementalAlterConfigsResponse", T := IncrementalAlterConfigsResponse, zero := {}, size := IncrementalAlterConfigsResponse.size, encode := IncrementalAlterConfigsResponse.encode,
    decode := IncrementalAlterConfigsResponse.decode }

end Kafka.Msg
