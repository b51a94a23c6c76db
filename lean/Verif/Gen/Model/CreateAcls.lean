import Verif.Message.Steps
/-!
Generated by tools/gen_messages.py from message/messages.gen.go: model of the CreateAcls messages.
-/
namespace Kafka.Msg

/-- message/messages.gen.go:7957-7965 `type CreatableAcl30 struct`; the defaults are the Go zero values. -/
@[ext] structure CreatableAcl30 where
  ResourceType : Int8 := 0
  ResourceName : GoString := []
  ResourcePatternType : Int8 := 0
  Principal : GoString := []
  Host : GoString := []
  Operation : Int8 := 0
  PermissionType : Int8 := 0

/-- message/messages.gen.go:7968-7980 `CreatableAcl30.Size` -/
def CreatableAcl30.size (version : Int16) (t : CreatableAcl30) : Int32 :=
   (Sizeof.add Sizeof.int8 ;;
    Sizeof.add (Sizeof.string t.ResourceName) ;;
    onlyIf (version ≥ 1) (Sizeof.add Sizeof.int8) ;;
    Sizeof.add (Sizeof.string t.Principal) ;;
    Sizeof.add (Sizeof.string t.Host) ;;
    Sizeof.add Sizeof.int8 ;;
    Sizeof.add Sizeof.int8) 0

/-- message/messages.gen.go:7983-7993 `CreatableAcl30.Encode` -/
def CreatableAcl30.encode (version : Int16) (t : CreatableAcl30) : Encoder → Encoder :=
    (·.putInt8 t.ResourceType) ;;
    (·.putString t.ResourceName) ;;
    onlyIf (version ≥ 1) (·.putInt8 t.ResourcePatternType) ;;
    (·.putString t.Principal) ;;
    (·.putString t.Host) ;;
    (·.putInt8 t.Operation) ;;
    (·.putInt8 t.PermissionType)

/-- message/messages.gen.go:7996-8029 `CreatableAcl30.Decode`; the second argument is the receiver. -/
def CreatableAcl30.decode (version : Int16) : CreatableAcl30 → Dec CreatableAcl30 :=
    Dec.field Dec.int8 (fun t x => { t with ResourceType := x }) ;>
    Dec.field Dec.string (fun t x => { t with ResourceName := x }) ;>
    Dec.onlyIf (version ≥ 1) (Dec.field Dec.int8 (fun t x => { t with ResourcePatternType := x })) ;>
    Dec.field Dec.string (fun t x => { t with Principal := x }) ;>
    Dec.field Dec.string (fun t x => { t with Host := x }) ;>
    Dec.field Dec.int8 (fun t x => { t with Operation := x }) ;>
    Dec.field Dec.int8 (fun t x => { t with PermissionType := x })

/-- The type `CreatableAcl30` with its methods. -/
def CreatableAcl30.type : MsgType :=
  { name := "CreatableAcl30", T := CreatableAcl30, zero := {}, size := CreatableAcl30.size, encode := CreatableAcl30.encode,
    decode := CreatableAcl30.decode }

/-- message/messages.gen.go:7914-7916 `type CreateAclsRequest struct`; the defaults are the Go zero values. -/
@[ext] structure CreateAclsRequest where
  Creations : Slice CreatableAcl30 := none

/-- message/messages.gen.go:7919-7926 `CreateAclsRequest.Size` -/
def CreateAclsRequest.size (version : Int16) (t : CreateAclsRequest) : Int32 :=
   (Sizeof.structs (CreatableAcl30.size version) t.Creations) 0

/-- message/messages.gen.go:7929-7936 `CreateAclsRequest.Encode` -/
def CreateAclsRequest.encode (version : Int16) (t : CreateAclsRequest) : Encoder → Encoder :=
    Encoder.putStructs (CreatableAcl30.encode version) t.Creations

/-- message/messages.gen.go:7939-7955 `CreateAclsRequest.Decode`; the second argument is the receiver. -/
def CreateAclsRequest.decode (version : Int16) : CreateAclsRequest → Dec CreateAclsRequest :=
    Dec.fieldStructs (CreatableAcl30.decode version {}) (·.Creations) (fun t x => { t with Creations := x })

/-- The type `CreateAclsRequest` with its methods. -/
def CreateAclsRequest.type : MsgType :=
  { name := "CreateAclsRequest", T := CreateAclsRequest, zero := {}, size := CreateAclsRequest.size, encode := CreateAclsRequest.encode,
    decode := CreateAclsRequest.decode }

/-- message/messages.gen.go:8082-8085 `type CreatableAclResult30 struct`; the defaults are the Go zero values. -/
@[ext] structure CreatableAclResult30 where
  ErrorCode : Int16 := 0
  ErrorMessage : GoString := []

/-- message/messages.gen.go:8088-8093 `CreatableAclResult30.Size` -/
def CreatableAclResult30.size (_version : Int16) (t : CreatableAclResult30) : Int32 :=
   (Sizeof.add Sizeof.int16 ;;
    Sizeof.add (Sizeof.string t.ErrorMessage)) 0

/-- message/messages.gen.go:8096-8099 `CreatableAclResult30.Encode` -/
def CreatableAclResult30.encode (_version : Int16) (t : CreatableAclResult30) : Encoder → Encoder :=
    (·.putInt16 t.ErrorCode) ;;
    (·.putString t.ErrorMessage)

/-- message/messages.gen.go:8102-8113 `CreatableAclResult30.Decode`; the second argument is the receiver. -/
def CreatableAclResult30.decode (_version : Int16) : CreatableAclResult30 → Dec CreatableAclResult30 :=
    Dec.field Dec.int16 (fun t x => { t with ErrorCode := x }) ;>
    Dec.field Dec.string (fun t x => { t with ErrorMessage := x })

/-- The type `CreatableAclResult30` with its methods. -/
def CreatableAclResult30.type : MsgType :=
  { name := "CreatableAclResult30", T := CreatableAclResult30, zero := {}, size := CreatableAclResult30.size, encode := CreatableAclResult30.encode,
    decode := CreatableAclResult30.decode }

/-- message/messages.gen.go:8032-8035 `type CreateAclsResponse struct`; the defaults are the Go zero values. -/
@[ext] structure CreateAclsResponse where
  ThrottleTimeMs : Int32 := 0
  Results : Slice CreatableAclResult30 := none

/-- message/messages.gen.go:8038-8046 `CreateAclsResponse.Size` -/
def CreateAclsResponse.size (version : Int16) (t : CreateAclsResponse) : Int32 :=
   (Sizeof.add Sizeof.int32 ;;
    Sizeof.structs (CreatableAclResult30.size version) t.Results) 0

/-- message/messages.gen.go:8049-8057 `CreateAclsResponse.Encode` -/
def CreateAclsResponse.encode (version : Int16) (t : CreateAclsResponse) : Encoder → Encoder :=
    (·.putInt32 t.ThrottleTimeMs) ;;
    Encoder.putStructs (CreatableAclResult30.encode version) t.Results

/-- message/messages.gen.go:8060-8080 `CreateAclsResponse.Decode`; the second argument is the receiver. -/
def CreateAclsResponse.decode (version : Int16) : CreateAclsResponse → Dec CreateAclsResponse :=
    Dec.field Dec.int32 (fun t x => { t with ThrottleTimeMs := x }) ;>
    Dec.fieldStructs (CreatableAclResult30.decode version {}) (·.Results) (fun t x => { t with Results := x })

/-- The type `CreateAclsResponse` with its methods. -/
def CreateAclsResponse.type : MsgType :=
  { name := "CreateAclsResponse", T := CreateAclsResponse, zero := {}, size := CreateAclsResponse.size, encode := CreateAclsResponse.encode,
    decode := CreateAclsResponse.decode }

end Kafka.Msg
