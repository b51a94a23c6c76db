import Verif.Message.Steps
/-!
Generated by tools/gen_messages.py from message/messages.gen.go: model of the DeleteAcls messages.
-/
namespace Kafka.Msg

/-- message/messages.gen.go:8159-8167 `type DeleteAclsFilter31 struct`; the defaults are the Go zero values. -/
@[ext] structure DeleteAclsFilter31 where
  ResourceTypeFilter : Int8 := 0
  ResourceNameFilter : GoString := []
  PatternTypeFilter : Int8 := 0
  PrincipalFilter : GoString := []
  HostFilter : GoString := []
  Operation : Int8 := 0
  PermissionType : Int8 := 0

/-- message/messages.gen.go:8170-8182 `DeleteAclsFilter31.Size` -/
def DeleteAclsFilter31.size (version : Int16) (t : DeleteAclsFilter31) : Int32 :=
   (Sizeof.add Sizeof.int8 ;;
    Sizeof.add (Sizeof.string t.ResourceNameFilter) ;;
    onlyIf (version ≥ 1) (Sizeof.add Sizeof.int8) ;;
    Sizeof.add (Sizeof.string t.PrincipalFilter) ;;
    Sizeof.add (Sizeof.string t.HostFilter) ;;
    Sizeof.add Sizeof.int8 ;;
    Sizeof.add Sizeof.int8) 0

/-- message/messages.gen.go:8185-8195 `DeleteAclsFilter31.Encode` -/
def DeleteAclsFilter31.encode (version : Int16) (t : DeleteAclsFilter31) : Encoder → Encoder :=
    (·.putInt8 t.ResourceTypeFilter) ;;
    (·.putString t.ResourceNameFilter) ;;
    onlyIf (version ≥ 1) (·.putInt8 t.PatternTypeFilter) ;;
    (·.putString t.PrincipalFilter) ;;
    (·.putString t.HostFilter) ;;
    (·.putInt8 t.Operation) ;;
    (·.putInt8 t.PermissionType)

/-- message/messages.gen.go:8198-8231 `DeleteAclsFilter31.Decode`; the second argument is the receiver. -/
def DeleteAclsFilter31.decode (version : Int16) : DeleteAclsFilter31 → Dec DeleteAclsFilter31 :=
    Dec.field Dec.int8 (fun t x => { t with ResourceTypeFilter := x }) ;>
    Dec.field Dec.string (fun t x => { t with ResourceNameFilter := x }) ;>
    Dec.onlyIf (version ≥ 1) (Dec.field Dec.int8 (fun t x => { t with PatternTypeFilter := x })) ;>
    Dec.field Dec.string (fun t x => { t with PrincipalFilter := x }) ;>
    Dec.field Dec.string (fun t x => { t with HostFilter := x }) ;>
    Dec.field Dec.int8 (fun t x => { t with Operation := x }) ;>
    Dec.field Dec.int8 (fun t x => { t with PermissionType := x })

/-- The type `DeleteAclsFilter31` with its methods. -/
def DeleteAclsFilter31.type : MsgType :=
  { name := "DeleteAclsFilter31", T := DeleteAclsFilter31, zero := {}, size := DeleteAclsFilter31.size, encode := DeleteAclsFilter31.encode,
    decode := DeleteAclsFilter31.decode }

/-- message/messages.gen.go:8116-8118 `type DeleteAclsRequest struct`; the defaults are the Go zero values. -/
@[ext] structure DeleteAclsRequest where
  Filters : Slice DeleteAclsFilter31 := none

/-- message/messages.gen.go:8121-8128 `DeleteAclsRequest.Size` -/
def DeleteAclsRequest.size (version : Int16) (t : DeleteAclsRequest) : Int32 :=
   (Sizeof.structs (DeleteAclsFilter31.size version) t.Filters) 0

/-- message/messages.gen.go:8131-8138 `DeleteAclsRequest.Encode` -/
def DeleteAclsRequest.encode (version : Int16) (t : DeleteAclsRequest) : Encoder → Encoder :=
    Encoder.putStructs (DeleteAclsFilter31.encode version) t.Filters

/-- message/messages.gen.go:8141-8157 `DeleteAclsRequest.Decode`; the second argument is the receiver. -/
def DeleteAclsRequest.decode (version : Int16) : DeleteAclsRequest → Dec DeleteAclsRequest :=
    Dec.fieldStructs (DeleteAclsFilter31.decode version {}) (·.Filters) (fun t x => { t with Filters := x })

/-- The type `DeleteAclsRequest` with its methods. -/
def DeleteAclsRequest.type : MsgType :=
  { name := "DeleteAclsRequest", T := DeleteAclsRequest, zero := {}, size := DeleteAclsRequest.size, encode := DeleteAclsRequest.encode,
    decode := DeleteAclsRequest.decode }

/-- message/messages.gen.go:8341-8351 `type DeleteAclsMatchingAcl31 struct`; the defaults are the Go zero values. -/
@[ext] structure DeleteAclsMatchingAcl31 where
  ErrorCode : Int16 := 0
  ErrorMessage : GoString := []
  ResourceType : Int8 := 0
  ResourceName : GoString := []
  PatternType : Int8 := 0
  Principal : GoString := []
  Host : GoString := []
  Operation : Int8 := 0
  PermissionType : Int8 := 0

/-- message/messages.gen.go:8354-8368 `DeleteAclsMatchingAcl31.Size` -/
def DeleteAclsMatchingAcl31.size (version : Int16) (t : DeleteAclsMatchingAcl31) : Int32 :=
   (Sizeof.add Sizeof.int16 ;;
    Sizeof.add (Sizeof.string t.ErrorMessage) ;;
    Sizeof.add Sizeof.int8 ;;
    Sizeof.add (Sizeof.string t.ResourceName) ;;
    onlyIf (version ≥ 1) (Sizeof.add Sizeof.int8) ;;
    Sizeof.add (Sizeof.string t.Principal) ;;
    Sizeof.add (Sizeof.string t.Host) ;;
    Sizeof.add Sizeof.int8 ;;
    Sizeof.add Sizeof.int8) 0

/-- message/messages.gen.go:8371-8383 `DeleteAclsMatchingAcl31.Encode` -/
def DeleteAclsMatchingAcl31.encode (version : Int16) (t : DeleteAclsMatchingAcl31) : Encoder → Encoder :=
    (·.putInt16 t.ErrorCode) ;;
    (·.putString t.ErrorMessage) ;;
    (·.putInt8 t.ResourceType) ;;
    (·.putString t.ResourceName) ;;
    onlyIf (version ≥ 1) (·.putInt8 t.PatternType) ;;
    (·.putString t.Principal) ;;
    (·.putString t.Host) ;;
    (·.putInt8 t.Operation) ;;
    (·.putInt8 t.PermissionType)

/-- message/messages.gen.go:8386-8427 `DeleteAclsMatchingAcl31.Decode`; the second argument is the receiver. -/
def DeleteAclsMatchingAcl31.decode (version : Int16) : DeleteAclsMatchingAcl31 → Dec DeleteAclsMatchingAcl31 :=
    Dec.field Dec.int16 (fun t x => { t with ErrorCode := x }) ;>
    Dec.field Dec.string (fun t x => { t with ErrorMessage := x }) ;>
    Dec.field Dec.int8 (fun t x => { t with ResourceType := x }) ;>
    Dec.field Dec.string (fun t x => { t with ResourceName := x }) ;>
    Dec.onlyIf (version ≥ 1) (Dec.field Dec.int8 (fun t x => { t with PatternType := x })) ;>
    Dec.field Dec.string (fun t x => { t with Principal := x }) ;>
    Dec.field Dec.string (fun t x => { t with Host := x }) ;>
    Dec.field Dec.int8 (fun t x => { t with Operation := x }) ;>
    Dec.field Dec.int8 (fun t x => { t with PermissionType := x })

/-- The type `DeleteAclsMatchingAcl31` with its methods. -/
def DeleteAclsMatchingAcl31.type : MsgType :=
  { name := "DeleteAclsMatchingAcl31", T := DeleteAclsMatchingAcl31, zero := {}, size := DeleteAclsMatchingAcl31.size, encode := DeleteAclsMatchingAcl31.encode,
    decode := DeleteAclsMatchingAcl31.decode }

/-- message/messages.gen.go:8284-8288 `type DeleteAclsFilterResult31 struct`; the defaults are the Go zero values. -/
@[ext] structure DeleteAclsFilterResult31 where
  ErrorCode : Int16 := 0
  ErrorMessage : GoString := []
  MatchingAcls : Slice DeleteAclsMatchingAcl31 := none

/-- message/messages.gen.go:8291-8300 `DeleteAclsFilterResult31.Size` -/
def DeleteAclsFilterResult31.size (version : Int16) (t : DeleteAclsFilterResult31) : Int32 :=
   (Sizeof.add Sizeof.int16 ;;
    Sizeof.add (Sizeof.string t.ErrorMessage) ;;
    Sizeof.structs (DeleteAclsMatchingAcl31.size version) t.MatchingAcls) 0

/-- message/messages.gen.go:8303-8312 `DeleteAclsFilterResult31.Encode` -/
def DeleteAclsFilterResult31.encode (version : Int16) (t : DeleteAclsFilterResult31) : Encoder → Encoder :=
    (·.putInt16 t.ErrorCode) ;;
    (·.putString t.ErrorMessage) ;;
    Encoder.putStructs (DeleteAclsMatchingAcl31.encode version) t.MatchingAcls

/-- message/messages.gen.go:8315-8339 `DeleteAclsFilterResult31.Decode`; the second argument is the receiver. -/
def DeleteAclsFilterResult31.decode (version : Int16) : DeleteAclsFilterResult31 → Dec DeleteAclsFilterResult31 :=
    Dec.field Dec.int16 (fun t x => { t with ErrorCode := x }) ;>
    Dec.field Dec.string (fun t x => { t with ErrorMessage := x }) ;>
    Dec.fieldStructs (DeleteAclsMatchingAcl31.decode version {}) (·.MatchingAcls) (fun t x => { t with MatchingAcls := x })

/-- The type `DeleteAclsFilterResult31` with its methods. -/
def DeleteAclsFilterResult31.type : MsgType :=
  { name := "DeleteAclsFilterResult31", T := DeleteAclsFilterResult31, zero := {}, size := DeleteAclsFilterResult31.size, encode := DeleteAclsFilterResult31.encode,
    decode := DeleteAclsFilterResult31.decode }

/-- message/messages.gen.go:8234-8237 `type DeleteAclsResponse struct`; the defaults are the Go zero values. -/
@[ext] structure DeleteAclsResponse where
  ThrottleTimeMs : Int32 := 0
  FilterResults : Slice DeleteAclsFilterResult31 := none

/-- message/messages.gen.go:8240-8248 `DeleteAclsResponse.Size` -/
def DeleteAclsResponse.size (version : Int16) (t : DeleteAclsResponse) : Int32 :=
   (Sizeof.add Sizeof.int32 ;;
    Sizeof.structs (DeleteAclsFilterResult31.size version) t.FilterResults) 0

/-- message/messages.gen.go:8251-8259 `DeleteAclsResponse.Encode` -/
def DeleteAclsResponse.encode (version : Int16) (t : DeleteAclsResponse) : Encoder → Encoder :=
    (·.putInt32 t.ThrottleTimeMs) ;;
    Encoder.putStructs (DeleteAclsFilterResult31.encode version) t.FilterResults

/-- message/messages.gen.go:8262-8282 `DeleteAclsResponse.Decode`; the second argument is the receiver. -/
def DeleteAclsResponse.decode (version : Int16) : DeleteAclsResponse → Dec DeleteAclsResponse :=
    Dec.field Dec.int32 (fun t x => { t with ThrottleTimeMs := x }) ;>
    Dec.fieldStructs (DeleteAclsFilterResult31.decode version {}) (·.FilterResults) (fun t x => { t with FilterResults := x })

/-- The type `DeleteAclsResponse` with its methods. -/
def DeleteAclsResponse.type : MsgType :=
  { name := "DeleteAclsResponse", T := DeleteAclsResponse, zero := {}, size := DeleteAclsResponse.size, encode := DeleteAclsResponse.encode,
    decode := DeleteAclsResponse.decode }

end Kafka.Msg
