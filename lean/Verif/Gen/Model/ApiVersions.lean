import Verif.Message.Steps
/-!
Generated by tools/gen_messages.py from message/messages.gen.go: model of the ApiVersions messages.
-/
namespace Kafka.Msg

/-- message/messages.gen.go:5209-5212 `type ApiVersionsRequest struct`; the defaults are the Go zero values. -/
@[ext] structure ApiVersionsRequest where
  ClientSoftwareName : GoString := []
  ClientSoftwareVersion : GoString := []

/-- message/messages.gen.go:5215-5224 `ApiVersionsRequest.Size` -/
def ApiVersionsRequest.size (version : Int16) (t : ApiVersionsRequest) : Int32 :=
   (onlyIf (version ≥ 3) (Sizeof.add (Sizeof.string t.ClientSoftwareName)) ;;
    onlyIf (version ≥ 3) (Sizeof.add (Sizeof.string t.ClientSoftwareVersion))) 0

/-- message/messages.gen.go:5227-5234 `ApiVersionsRequest.Encode` -/
def ApiVersionsRequest.encode (version : Int16) (t : ApiVersionsRequest) : Encoder → Encoder :=
    onlyIf (version ≥ 3) (·.putString t.ClientSoftwareName) ;;
    onlyIf (version ≥ 3) (·.putString t.ClientSoftwareVersion)

/-- message/messages.gen.go:5237-5252 `ApiVersionsRequest.Decode`; the second argument is the receiver. -/
def ApiVersionsRequest.decode (version : Int16) : ApiVersionsRequest → Dec ApiVersionsRequest :=
    Dec.onlyIf (version ≥ 3) (Dec.field Dec.string (fun t x => { t with ClientSoftwareName := x })) ;>
    Dec.onlyIf (version ≥ 3) (Dec.field Dec.string (fun t x => { t with ClientSoftwareVersion := x }))

/-- The type `ApiVersionsRequest` with its methods. -/
def ApiVersionsRequest.type : MsgType :=
  { name := "ApiVersionsRequest", T := ApiVersionsRequest, zero := {}, size := ApiVersionsRequest.size, encode := ApiVersionsRequest.encode,
    decode := ApiVersionsRequest.decode }

/-- message/messages.gen.go:5318-5322 `type ApiVersionsResponseKey18 struct`; the defaults are the Go zero values. -/
@[ext] structure ApiVersionsResponseKey18 where
  ApiKey : Int16 := 0
  MinVersion : Int16 := 0
  MaxVersion : Int16 := 0

/-- message/messages.gen.go:5325-5331 `ApiVersionsResponseKey18.Size` -/
def ApiVersionsResponseKey18.size (_version : Int16) (_t : ApiVersionsResponseKey18) : Int32 :=
   (Sizeof.add Sizeof.int16 ;;
    Sizeof.add Sizeof.int16 ;;
    Sizeof.add Sizeof.int16) 0

/-- message/messages.gen.go:5334-5338 `ApiVersionsResponseKey18.Encode` -/
def ApiVersionsResponseKey18.encode (_version : Int16) (t : ApiVersionsResponseKey18) : Encoder → Encoder :=
    (·.putInt16 t.ApiKey) ;;
    (·.putInt16 t.MinVersion) ;;
    (·.putInt16 t.MaxVersion)

/-- message/messages.gen.go:5341-5356 `ApiVersionsResponseKey18.Decode`; the second argument is the receiver. -/
def ApiVersionsResponseKey18.decode (_version : Int16) : ApiVersionsResponseKey18 → Dec ApiVersionsResponseKey18 :=
    Dec.field Dec.int16 (fun t x => { t with ApiKey := x }) ;>
    Dec.field Dec.int16 (fun t x => { t with MinVersion := x }) ;>
    Dec.field Dec.int16 (fun t x => { t with MaxVersion := x })

/-- The type `ApiVersionsResponseKey18` with its methods. -/
def ApiVersionsResponseKey18.type : MsgType :=
  { name := "ApiVersionsResponseKey18", T := ApiVersionsResponseKey18, zero := {}, size := ApiVersionsResponseKey18.size, encode := ApiVersionsResponseKey18.encode,
    decode := ApiVersionsResponseKey18.decode }

/-- message/messages.gen.go:5255-5259 `type ApiVersionsResponse struct`; the defaults are the Go zero values. -/
@[ext] structure ApiVersionsResponse where
  ErrorCode : Int16 := 0
  ApiKeys : Slice ApiVersionsResponseKey18 := none
  ThrottleTimeMs : Int32 := 0

/-- message/messages.gen.go:5262-5273 `ApiVersionsResponse.Size` -/
def ApiVersionsResponse.size (version : Int16) (t : ApiVersionsResponse) : Int32 :=
   (Sizeof.add Sizeof.int16 ;;
    Sizeof.structs (ApiVersionsResponseKey18.size version) t.ApiKeys ;;
    onlyIf (version ≥ 1) (Sizeof.add Sizeof.int32)) 0

/-- message/messages.gen.go:5276-5287 `ApiVersionsResponse.Encode` -/
def ApiVersionsResponse.encode (version : Int16) (t : ApiVersionsResponse) : Encoder → Encoder :=
    (·.putInt16 t.ErrorCode) ;;
    Encoder.putStructs (ApiVersionsResponseKey18.encode version) t.ApiKeys ;;
    onlyIf (version ≥ 1) (·.putInt32 t.ThrottleTimeMs)

/-- message/messages.gen.go:5290-5316 `ApiVersionsResponse.Decode`; the second argument is the receiver. -/
def ApiVersionsResponse.decode (version : Int16) : ApiVersionsResponse → Dec ApiVersionsResponse :=
    Dec.field Dec.int16 (fun t x => { t with ErrorCode := x }) ;>
    Dec.fieldStructs (ApiVersionsResponseKey18.decode version {}) (·.ApiKeys) (fun t x => { t with ApiKeys := x }) ;>
    Dec.onlyIf (version ≥ 1) (Dec.field Dec.int32 (fun t x => { t with ThrottleTimeMs := x }))

/-- The type `ApiVersionsResponse` with its methods. -/
def ApiVersionsResponse.type : MsgType :=
  { name := "ApiVersionsResponse", T := ApiVersionsResponse, zero := {}, size := ApiVersionsResponse.size, encode := ApiVersionsResponse.encode,
    decode := ApiVersionsResponse.decode }

end Kafka.Msg
