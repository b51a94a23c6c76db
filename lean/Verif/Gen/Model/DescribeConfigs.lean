import Verif.Message.Steps
/-!
Generated by tools/gen_messages.py from message/messages.gen.go: model of the DescribeConfigs messages.
-/
namespace Kafka.Msg

/-- message/messages.gen.go:8486-8490 `type DescribeConfigsResource32 struct`; the defaults are the Go zero values. -/
@[ext] structure DescribeConfigsResource32 where
  ResourceType : Int8 := 0
  ResourceName : GoString := []
  ConfigurationKeys : Slice GoString := none

/-- message/messages.gen.go:8493-8499 `DescribeConfigsResource32.Size` -/
def DescribeConfigsResource32.size (_version : Int16) (t : DescribeConfigsResource32) : Int32 :=
   (Sizeof.add Sizeof.int8 ;;
    Sizeof.add (Sizeof.string t.ResourceName) ;;
    Sizeof.add (Sizeof.stringArray t.ConfigurationKeys)) 0

/-- message/messages.gen.go:8502-8506 `DescribeConfigsResource32.Encode` -/
def DescribeConfigsResource32.encode (_version : Int16) (t : DescribeConfigsResource32) : Encoder → Encoder :=
    (·.putInt8 t.ResourceType) ;;
    (·.putString t.ResourceName) ;;
    (·.putStringArray t.ConfigurationKeys)

/-- message/messages.gen.go:8509-8524 `DescribeConfigsResource32.Decode`; the second argument is the receiver. -/
def DescribeConfigsResource32.decode (_version : Int16) : DescribeConfigsResource32 → Dec DescribeConfigsResource32 :=
    Dec.field Dec.int8 (fun t x => { t with ResourceType := x }) ;>
    Dec.field Dec.string (fun t x => { t with ResourceName := x }) ;>
    Dec.field Dec.stringArray (fun t x => { t with ConfigurationKeys := x })

/-- The type `DescribeConfigsResource32` with its methods. -/
def DescribeConfigsResource32.type : MsgType :=
  { name := "DescribeConfigsResource32", T := DescribeConfigsResource32, zero := {}, size := DescribeConfigsResource32.size, encode := DescribeConfigsResource32.encode,
    decode := DescribeConfigsResource32.decode }

/-- message/messages.gen.go:8430-8433 `type DescribeConfigsRequest struct`; the defaults are the Go zero values. -/
@[ext] structure DescribeConfigsRequest where
  Resources : Slice DescribeConfigsResource32 := none
  IncludeSynoyms : Bool := false

/-- message/messages.gen.go:8436-8446 `DescribeConfigsRequest.Size` -/
def DescribeConfigsRequest.size (version : Int16) (t : DescribeConfigsRequest) : Int32 :=
   (Sizeof.structs (DescribeConfigsResource32.size version) t.Resources ;;
    onlyIf (version ≥ 1) (Sizeof.add Sizeof.bool)) 0

/-- message/messages.gen.go:8449-8459 `DescribeConfigsRequest.Encode` -/
def DescribeConfigsRequest.encode (version : Int16) (t : DescribeConfigsRequest) : Encoder → Encoder :=
    Encoder.putStructs (DescribeConfigsResource32.encode version) t.Resources ;;
    onlyIf (version ≥ 1) (·.putBool t.IncludeSynoyms)

/-- message/messages.gen.go:8462-8484 `DescribeConfigsRequest.Decode`; the second argument is the receiver. -/
def DescribeConfigsRequest.decode (version : Int16) : DescribeConfigsRequest → Dec DescribeConfigsRequest :=
    Dec.fieldStructs (DescribeConfigsResource32.decode version {}) (·.Resources) (fun t x => { t with Resources := x }) ;>
    Dec.onlyIf (version ≥ 1) (Dec.field Dec.bool (fun t x => { t with IncludeSynoyms := x }))

/-- The type `DescribeConfigsRequest` with its methods. -/
def DescribeConfigsRequest.type : MsgType :=
  { name := "DescribeConfigsRequest", T := DescribeConfigsRequest, zero := {}, size := DescribeConfigsRequest.size, encode := DescribeConfigsRequest.encode,
    decode := DescribeConfigsRequest.decode }

/-- message/messages.gen.go:8751-8755 `type DescribeConfigsSynonym32 struct`; the defaults are the Go zero values. -/
@[ext] structure DescribeConfigsSynonym32 where
  Name : GoString := []
  Value : GoString := []
  Source : Int8 := 0

/-- message/messages.gen.go:8758-8770 `DescribeConfigsSynonym32.Size` -/
def DescribeConfigsSynonym32.size (version : Int16) (t : DescribeConfigsSynonym32) : Int32 :=
   (onlyIf (version ≥ 1) (Sizeof.add (Sizeof.string t.Name)) ;;
    onlyIf (version ≥ 1) (Sizeof.add (Sizeof.string t.Value)) ;;
    onlyIf (version ≥ 1) (Sizeof.add Sizeof.int8)) 0

/-- message/messages.gen.go:8773-8783 `DescribeConfigsSynonym32.Encode` -/
def DescribeConfigsSynonym32.encode (version : Int16) (t : DescribeConfigsSynonym32) : Encoder → Encoder :=
    onlyIf (version ≥ 1) (·.putString t.Name) ;;
    onlyIf (version ≥ 1) (·.putString t.Value) ;;
    onlyIf (version ≥ 1) (·.putInt8 t.Source)

/-- message/messages.gen.go:8786-8807 `DescribeConfigsSynonym32.Decode`; the second argument is the receiver. -/
def DescribeConfigsSynonym32.decode (version : Int16) : DescribeConfigsSynonym32 → Dec DescribeConfigsSynonym32 :=
    Dec.onlyIf (version ≥ 1) (Dec.field Dec.string (fun t x => { t with Name := x })) ;>
    Dec.onlyIf (version ≥ 1) (Dec.field Dec.string (fun t x => { t with Value := x })) ;>
    Dec.onlyIf (version ≥ 1) (Dec.field Dec.int8 (fun t x => { t with Source := x }))

/-- The type `DescribeConfigsSynonym32` with its methods. -/
def DescribeConfigsSynonym32.type : MsgType :=
  { name := "DescribeConfigsSynonym32", T := DescribeConfigsSynonym32, zero := {}, size := DescribeConfigsSynonym32.size, encode := DescribeConfigsSynonym32.encode,
    decode := DescribeConfigsSynonym32.decode }

/-- message/messages.gen.go:8648-8656 `type DescribeConfigsResourceResult32 struct`; the defaults are the Go zero values. -/
@[ext] structure DescribeConfigsResourceResult32 where
  Name : GoString := []
  Value : GoString := []
  ReadOnly : Bool := false
  IsDefault : Bool := false
  ConfigSource : Int8 := 0
  IsSensitive : Bool := false
  Synonyms : Slice DescribeConfigsSynonym32 := none

/-- message/messages.gen.go:8659-8678 `DescribeConfigsResourceResult32.Size` -/
def DescribeConfigsResourceResult32.size (version : Int16) (t : DescribeConfigsResourceResult32) : Int32 :=
   (Sizeof.add (Sizeof.string t.Name) ;;
    Sizeof.add (Sizeof.string t.Value) ;;
    Sizeof.add Sizeof.bool ;;
    onlyIf (version ≥ 0 ∧ version ≤ 0) (Sizeof.add Sizeof.bool) ;;
    onlyIf (version ≥ 1) (Sizeof.add Sizeof.int8) ;;
    Sizeof.add Sizeof.bool ;;
    onlyIf (version ≥ 1) (Sizeof.structs (DescribeConfigsSynonym32.size version) t.Synonyms)) 0

/-- message/messages.gen.go:8681-8700 `DescribeConfigsResourceResult32.Encode` -/
def DescribeConfigsResourceResult32.encode (version : Int16) (t : DescribeConfigsResourceResult32) : Encoder → Encoder :=
    (·.putString t.Name) ;;
    (·.putString t.Value) ;;
    (·.putBool t.ReadOnly) ;;
    onlyIf (version ≥ 0 ∧ version ≤ 0) (·.putBool t.IsDefault) ;;
    onlyIf (version ≥ 1) (·.putInt8 t.ConfigSource) ;;
    (·.putBool t.IsSensitive) ;;
    onlyIf (version ≥ 1) (Encoder.putStructs (DescribeConfigsSynonym32.encode version) t.Synonyms)

/-- message/messages.gen.go:8703-8749 `DescribeConfigsResourceResult32.Decode`; the second argument is the receiver. -/
def DescribeConfigsResourceResult32.decode (version : Int16) : DescribeConfigsResourceResult32 → Dec DescribeConfigsResourceResult32 :=
    Dec.field Dec.string (fun t x => { t with Name := x }) ;>
    Dec.field Dec.string (fun t x => { t with Value := x }) ;>
    Dec.field Dec.bool (fun t x => { t with ReadOnly := x }) ;>
    Dec.onlyIf (version ≥ 0 ∧ version ≤ 0) (Dec.field Dec.bool (fun t x => { t with IsDefault := x })) ;>
    Dec.onlyIf (version ≥ 1) (Dec.field Dec.int8 (fun t x => { t with ConfigSource := x })) ;>
    Dec.field Dec.bool (fun t x => { t with IsSensitive := x }) ;>
    Dec.onlyIf (version ≥ 1) (Dec.fieldStructs (DescribeConfigsSynonym32.decode version {}) (·.Synonyms) (fun t x => { t with Synonyms := x }))

/-- The type `DescribeConfigsResourceResult32` with its methods. -/
def DescribeConfigsResourceResult32.type : MsgType :=
  { name := "DescribeConfigsResourceResult32", T := DescribeConfigsResourceResult32, zero := {}, size := DescribeConfigsResourceResult32.size, encode := DescribeConfigsResourceResult32.encode,
    decode := DescribeConfigsResourceResult32.decode }

/-- message/messages.gen.go:8577-8583 `type DescribeConfigsResult32 struct`; the defaults are the Go zero values. -/
@[ext] structure DescribeConfigsResult32 where
  ErrorCode : Int16 := 0
  ErrorMessage : GoString := []
  ResourceType : Int8 := 0
  ResourceName : GoString := []
  Configs : Slice DescribeConfigsResourceResult32 := none

/-- message/messages.gen.go:8586-8597 `DescribeConfigsResult32.Size` -/
def DescribeConfigsResult32.size (version : Int16) (t : DescribeConfigsResult32) : Int32 :=
   (Sizeof.add Sizeof.int16 ;;
    Sizeof.add (Sizeof.string t.ErrorMessage) ;;
    Sizeof.add Sizeof.int8 ;;
    Sizeof.add (Sizeof.string t.ResourceName) ;;
    Sizeof.structs (DescribeConfigsResourceResult32.size version) t.Configs) 0

/-- message/messages.gen.go:8600-8611 `DescribeConfigsResult32.Encode` -/
def DescribeConfigsResult32.encode (version : Int16) (t : DescribeConfigsResult32) : Encoder → Encoder :=
    (·.putInt16 t.ErrorCode) ;;
    (·.putString t.ErrorMessage) ;;
    (·.putInt8 t.ResourceType) ;;
    (·.putString t.ResourceName) ;;
    Encoder.putStructs (DescribeConfigsResourceResult32.encode version) t.Configs

/-- message/messages.gen.go:8614-8646 `DescribeConfigsResult32.Decode`; the second argument is the receiver. -/
def DescribeConfigsResult32.decode (version : Int16) : DescribeConfigsResult32 → Dec DescribeConfigsResult32 :=
    Dec.field Dec.int16 (fun t x => { t with ErrorCode := x }) ;>
    Dec.field Dec.string (fun t x => { t with ErrorMessage := x }) ;>
    Dec.field Dec.int8 (fun t x => { t with ResourceType := x }) ;>
    Dec.field Dec.string (fun t x => { t with ResourceName := x }) ;>
    Dec.fieldStructs (DescribeConfigsResourceResult32.decode version {}) (·.Configs) (fun t x => { t with Configs := x })

/-- The type `DescribeConfigsResult32` with its methods. -/
def DescribeConfigsResult32.type : MsgType :=
  { name := "DescribeConfigsResult32", T := DescribeConfigsResult32, zero := {}, size := DescribeConfigsResult32.size, encode := DescribeConfigsResult32.encode,
    decode := DescribeConfigsResult32.decode }

/-- message/messages.gen.go:8527-8530 `type DescribeConfigsResponse struct`; the defaults are the Go zero values. -/
@[ext] structure DescribeConfigsResponse where
  ThrottleTimeMs : Int32 := 0
  Results : Slice DescribeConfigsResult32 := none

/-- message/messages.gen.go:8533-8541 `DescribeConfigsResponse.Size` -/
def DescribeConfigsResponse.size (version : Int16) (t : DescribeConfigsResponse) : Int32 :=
   (Sizeof.add Sizeof.int32 ;;
    Sizeof.structs (DescribeConfigsResult32.size version) t.Results) 0

/-- message/messages.gen.go:8544-8552 `DescribeConfigsResponse.Encode` -/
def DescribeConfigsResponse.encode (version : Int16) (t : DescribeConfigsResponse) : Encoder → Encoder :=
    (·.putInt32 t.ThrottleTimeMs) ;;
    Encoder.putStructs (DescribeConfigsResult32.encode version) t.Results

/-- message/messages.gen.go:8555-8575 `DescribeConfigsResponse.Decode`; the second argument is the receiver. -/
def DescribeConfigsResponse.decode (version : Int16) : DescribeConfigsResponse → Dec DescribeConfigsResponse :=
    Dec.field Dec.int32 (fun t x => { t with ThrottleTimeMs := x }) ;>
    Dec.fieldStructs (DescribeConfigsResult32.decode version {}) (·.Results) (fun t x => { t with Results := x })

/-- The type `DescribeConfigsResponse` with its methods. -/
def DescribeConfigsResponse.type : MsgType :=
  { name := "DescribeConfigsResponse", T := DescribeConfigsResponse, zero := {}, size := DescribeConfigsResponse.size, encode := DescribeConfigsResponse.encode,
    decode := DescribeConfigsResponse.decode }

end Kafka.Msg
