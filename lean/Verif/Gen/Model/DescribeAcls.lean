import Verif.Message.Steps
/-!
Generated by tools/gen_messages.py from message/messages.gen.go: model of the DescribeAcls messages.
-/
namespace Kafka.Msg

/-- message/messages.gen.go:7657-7665 `type DescribeAclsRequest struct`; the defaults are the Go zero values. -/
@[ext] structure DescribeAclsRequest where
  ResourceType : Int8 := 0
  ResourceNameFilter : GoString := []
  ResourcePatternType : Int8 := 0
  PrincipalFilter : GoString := []
  HostFilter : GoString := []
  Operation : Int8 := 0
  PermissionType : Int8 := 0

/-- message/messages.gen.go:7668-7680 `DescribeAclsRequest.Size` -/
def DescribeAclsRequest.size (version : Int16) (t : DescribeAclsRequest) : Int32 :=
   (Sizeof.add Sizeof.int8 ;;
    Sizeof.add (Sizeof.string t.ResourceNameFilter) ;;
    onlyIf (version ≥ 1) (Sizeof.add Sizeof.int8) ;;
    Sizeof.add (Sizeof.string t.PrincipalFilter) ;;
    Sizeof.add (Sizeof.string t.HostFilter) ;;
    Sizeof.add Sizeof.int8 ;;
    Sizeof.add Sizeof.int8) 0

/-- message/messages.gen.go:7683-7693 `DescribeAclsRequest.Encode` -/
def DescribeAclsRequest.encode (version : Int16) (t : DescribeAclsRequest) : Encoder → Encoder :=
    (·.putInt8 t.ResourceType) ;;
    (·.putString t.ResourceNameFilter) ;;
    onlyIf (version ≥ 1) (·.putInt8 t.ResourcePatternType) ;;
    (·.putString t.PrincipalFilter) ;;
    (·.putString t.HostFilter) ;;
    (·.putInt8 t.Operation) ;;
    (·.putInt8 t.PermissionType)

/-- message/messages.gen.go:7696-7729 `DescribeAclsRequest.Decode`; the second argument is the receiver. -/
def DescribeAclsRequest.decode (version : Int16) : DescribeAclsRequest → Dec DescribeAclsRequest :=
    Dec.field Dec.int8 (fun t x => { t with ResourceType := x }) ;>
    Dec.field Dec.string (fun t x => { t with ResourceNameFilter := x }) ;>
    Dec.onlyIf (version ≥ 1) (Dec.field Dec.int8 (fun t x => { t with ResourcePatternType := x })) ;>
    Dec.field Dec.string (fun t x => { t with PrincipalFilter := x }) ;>
    Dec.field Dec.string (fun t x => { t with HostFilter := x }) ;>
    Dec.field Dec.int8 (fun t x => { t with Operation := x }) ;>
    Dec.field Dec.int8 (fun t x => { t with PermissionType := x })

/-- The type `DescribeAclsRequest` with its methods. -/
def DescribeAclsRequest.type : MsgType :=
  { name := "DescribeAclsRequest", T := DescribeAclsRequest, zero := {}, size := DescribeAclsRequest.size, encode := DescribeAclsRequest.encode,
    decode := DescribeAclsRequest.decode }

/-- message/messages.gen.go:7866-7871 `type AclDescription29 struct`; the defaults are the Go zero values. -/
@[ext] structure AclDescription29 where
  Principal : GoString := []
  Host : GoString := []
  Operation : Int8 := 0
  PermissionType : Int8 := 0

/-- message/messages.gen.go:7874-7881 `AclDescription29.Size` -/
def AclDescription29.size (_version : Int16) (t : AclDescription29) : Int32 :=
   (Sizeof.add (Sizeof.string t.Principal) ;;
    Sizeof.add (Sizeof.string t.Host) ;;
    Sizeof.add Sizeof.int8 ;;
    Sizeof.add Sizeof.int8) 0

/-- message/messages.gen.go:7884-7889 `AclDescription29.Encode` -/
def AclDescription29.encode (_version : Int16) (t : AclDescription29) : Encoder → Encoder :=
    (·.putString t.Principal) ;;
    (·.putString t.Host) ;;
    (·.putInt8 t.Operation) ;;
    (·.putInt8 t.PermissionType)

/-- message/messages.gen.go:7892-7911 `AclDescription29.Decode`; the second argument is the receiver. -/
def AclDescription29.decode (_version : Int16) : AclDescription29 → Dec AclDescription29 :=
    Dec.field Dec.string (fun t x => { t with Principal := x }) ;>
    Dec.field Dec.string (fun t x => { t with Host := x }) ;>
    Dec.field Dec.int8 (fun t x => { t with Operation := x }) ;>
    Dec.field Dec.int8 (fun t x => { t with PermissionType := x })

/-- The type `AclDescription29` with its methods. -/
def AclDescription29.type : MsgType :=
  { name := "AclDescription29", T := AclDescription29, zero := {}, size := AclDescription29.size, encode := AclDescription29.encode,
    decode := AclDescription29.decode }

/-- message/messages.gen.go:7796-7801 `type DescribeAclsResource29 struct`; the defaults are the Go zero values. -/
@[ext] structure DescribeAclsResource29 where
  «Type» : Int8 := 0
  Name : GoString := []
  PatternType : Int8 := 0
  Acls : Slice AclDescription29 := none

/-- message/messages.gen.go:7804-7816 `DescribeAclsResource29.Size` -/
def DescribeAclsResource29.size (version : Int16) (t : DescribeAclsResource29) : Int32 :=
   (Sizeof.add Sizeof.int8 ;;
    Sizeof.add (Sizeof.string t.Name) ;;
    onlyIf (version ≥ 1) (Sizeof.add Sizeof.int8) ;;
    Sizeof.structs (AclDescription29.size version) t.Acls) 0

/-- message/messages.gen.go:7819-7831 `DescribeAclsResource29.Encode` -/
def DescribeAclsResource29.encode (version : Int16) (t : DescribeAclsResource29) : Encoder → Encoder :=
    (·.putInt8 t.«Type») ;;
    (·.putString t.Name) ;;
    onlyIf (version ≥ 1) (·.putInt8 t.PatternType) ;;
    Encoder.putStructs (AclDescription29.encode version) t.Acls

/-- message/messages.gen.go:7834-7864 `DescribeAclsResource29.Decode`; the second argument is the receiver. -/
def DescribeAclsResource29.decode (version : Int16) : DescribeAclsResource29 → Dec DescribeAclsResource29 :=
    Dec.field Dec.int8 (fun t x => { t with «Type» := x }) ;>
    Dec.field Dec.string (fun t x => { t with Name := x }) ;>
    Dec.onlyIf (version ≥ 1) (Dec.field Dec.int8 (fun t x => { t with PatternType := x })) ;>
    Dec.fieldStructs (AclDescription29.decode version {}) (·.Acls) (fun t x => { t with Acls := x })

/-- The type `DescribeAclsResource29` with its methods. -/
def DescribeAclsResource29.type : MsgType :=
  { name := "DescribeAclsResource29", T := DescribeAclsResource29, zero := {}, size := DescribeAclsResource29.size, encode := DescribeAclsResource29.encode,
    decode := DescribeAclsResource29.decode }

/-- message/messages.gen.go:7732-7737 `type DescribeAclsResponse struct`; the defaults are the Go zero values. -/
@[ext] structure DescribeAclsResponse where
  ThrottleTimeMs : Int32 := 0
  ErrorCode : Int16 := 0
  ErrorMessage : GoString := []
  Resources : Slice DescribeAclsResource29 := none

/-- message/messages.gen.go:7740-7750 `DescribeAclsResponse.Size` -/
def DescribeAclsResponse.size (version : Int16) (t : DescribeAclsResponse) : Int32 :=
   (Sizeof.add Sizeof.int32 ;;
    Sizeof.add Sizeof.int16 ;;
    Sizeof.add (Sizeof.string t.ErrorMessage) ;;
    Sizeof.structs (DescribeAclsResource29.size version) t.Resources) 0

/-- message/messages.gen.go:7753-7763 `DescribeAclsResponse.Encode` -/
def DescribeAclsResponse.encode (version : Int16) (t : DescribeAclsResponse) : Encoder → Encoder :=
    (·.putInt32 t.ThrottleTimeMs) ;;
    (·.putInt16 t.ErrorCode) ;;
    (·.putString t.ErrorMessage) ;;
    Encoder.putStructs (DescribeAclsResource29.encode version) t.Resources

/-- message/messages.gen.go:7766-7794 `DescribeAclsResponse.Decode`; the second argument is the receiver. -/
def DescribeAclsResponse.decode (version : Int16) : DescribeAclsResponse → Dec DescribeAclsResponse :=
    Dec.field Dec.int32 (fun t x => { t with ThrottleTimeMs := x }) ;>
    Dec.field Dec.int16 (fun t x => { t with ErrorCode := x }) ;>
    Dec.field Dec.string (fun t x => { t with ErrorMessage := x }) ;>
    Dec.fieldStructs (DescribeAclsResource29.decode version {}) (·.Resources) (fun t x => { t with Resources := x })

/-- The type `DescribeAclsResponse` with its methods. -/
def DescribeAclsResponse.type : MsgType :=
  { name := "DescribeAclsResponse", T := DescribeAclsResponse, zero := {}, size := DescribeAclsResponse.size, encode := DescribeAclsResponse.encode,
    decode := DescribeAclsResponse.decode }

end Kafka.Msg
