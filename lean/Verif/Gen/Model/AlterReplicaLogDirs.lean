import Verif.Message.Steps
/-!
Generated by tools/gen_messages.py from message/messages.gen.go: model of the AlterReplicaLogDirs messages.
-/
namespace Kafka.Msg

/-- message/messages.gen.go:9142-9145 `type AlterReplicaLogDirTopic34 struct`; the defaults are the Go zero values. -/
@[ext] structure AlterReplicaLogDirTopic34 where
  Name : GoString := []
  Partitions : Slice Int32 := none

/-- message/messages.gen.go:9148-9153 `AlterReplicaLogDirTopic34.Size` -/
def AlterReplicaLogDirTopic34.size (_version : Int16) (t : AlterReplicaLogDirTopic34) : Int32 :=
   (Sizeof.add (Sizeof.string t.Name) ;;
    Sizeof.add (Sizeof.int32Array t.Partitions)) 0

/-- message/messages.gen.go:9156-9159 `AlterReplicaLogDirTopic34.Encode` -/
def AlterReplicaLogDirTopic34.encode (_version : Int16) (t : AlterReplicaLogDirTopic34) : Encoder → Encoder :=
    (·.putString t.Name) ;;
    (·.putInt32Array t.Partitions)

/-- message/messages.gen.go:9162-9173 `AlterReplicaLogDirTopic34.Decode`; the second argument is the receiver. -/
def AlterReplicaLogDirTopic34.decode (_version : Int16) : AlterReplicaLogDirTopic34 → Dec AlterReplicaLogDirTopic34 :=
    Dec.field Dec.string (fun t x => { t with Name := x }) ;>
    Dec.field Dec.int32Array (fun t x => { t with Partitions := x })

/-- The type `AlterReplicaLogDirTopic34` with its methods. -/
def AlterReplicaLogDirTopic34.type : MsgType :=
  { name := "AlterReplicaLogDirTopic34", T := AlterReplicaLogDirTopic34, zero := {}, size := AlterReplicaLogDirTopic34.size, encode := AlterReplicaLogDirTopic34.encode,
    decode := AlterReplicaLogDirTopic34.decode }

/-- message/messages.gen.go:9092-9095 `type AlterReplicaLogDir34 struct`; the defaults are the Go zero values. -/
@[ext] structure AlterReplicaLogDir34 where
  Path : GoString := []
  Topics : Slice AlterReplicaLogDirTopic34 := none

/-- message/messages.gen.go:9098-9106 `AlterReplicaLogDir34.Size` -/
def AlterReplicaLogDir34.size (version : Int16) (t : AlterReplicaLogDir34) : Int32 :=
   (Sizeof.add (Sizeof.string t.Path) ;;
    Sizeof.structs (AlterReplicaLogDirTopic34.size version) t.Topics) 0

/-- message/messages.gen.go:9109-9117 `AlterReplicaLogDir34.Encode` -/
def AlterReplicaLogDir34.encode (version : Int16) (t : AlterReplicaLogDir34) : Encoder → Encoder :=
    (·.putString t.Path) ;;
    Encoder.putStructs (AlterReplicaLogDirTopic34.encode version) t.Topics

/-- message/messages.gen.go:9120-9140 `AlterReplicaLogDir34.Decode`; the second argument is the receiver. -/
def AlterReplicaLogDir34.decode (version : Int16) : AlterReplicaLogDir34 → Dec AlterReplicaLogDir34 :=
    Dec.field Dec.string (fun t x => { t with Path := x }) ;>
    Dec.fieldStructs (AlterReplicaLogDirTopic34.decode version {}) (·.Topics) (fun t x => { t with Topics := x })

/-- The type `AlterReplicaLogDir34` with its methods. -/
def AlterReplicaLogDir34.type : MsgType :=
  { name := "AlterReplicaLogDir34", T := AlterReplicaLogDir34, zero := {}, size := AlterReplicaLogDir34.size, encode := AlterReplicaLogDir34.encode,
    decode := AlterReplicaLogDir34.decode }

/-- message/messages.gen.go:9049-9051 `type AlterReplicaLogDirsRequest struct`; the defaults are the Go zero values. -/
@[ext] structure AlterReplicaLogDirsRequest where
  Dirs : Slice AlterReplicaLogDir34 := none

/-- message/messages.gen.go:9054-9061 `AlterReplicaLogDirsRequest.Size` -/
def AlterReplicaLogDirsRequest.size (version : Int16) (t : AlterReplicaLogDirsRequest) : Int32 :=
   (Sizeof.structs (AlterReplicaLogDir34.size version) t.Dirs) 0

/-- message/messages.gen.go:9064-9071 `AlterReplicaLogDirsRequest.Encode` -/
def AlterReplicaLogDirsRequest.encode (version : Int16) (t : AlterReplicaLogDirsRequest) : Encoder → Encoder :=
    Encoder.putStructs (AlterReplicaLogDir34.encode version) t.Dirs

/-- message/messages.gen.go:9074-9090 `AlterReplicaLogDirsRequest.Decode`; the second argument is the receiver. -/
def AlterReplicaLogDirsRequest.decode (version : Int16) : AlterReplicaLogDirsRequest → Dec AlterReplicaLogDirsRequest :=
    Dec.fieldStructs (AlterReplicaLogDir34.decode version {}) (·.Dirs) (fun t x => { t with Dirs := x })

/-- The type `AlterReplicaLogDirsRequest` with its methods. -/
def AlterReplicaLogDirsRequest.type : MsgType :=
  { name := "AlterReplicaLogDirsRequest", T := AlterReplicaLogDirsRequest, zero := {}, size := AlterReplicaLogDirsRequest.size, encode := AlterReplicaLogDirsRequest.encode,
    decode := AlterReplicaLogDirsRequest.decode }

/-- message/messages.gen.go:9276-9279 `type AlterReplicaLogDirPartitionResult34 struct`; the defaults are the Go zero values. -/
@[ext] structure AlterReplicaLogDirPartitionResult34 where
  PartitionIndex : Int32 := 0
  ErrorCode : Int16 := 0

/-- message/messages.gen.go:9282-9287 `AlterReplicaLogDirPartitionResult34.Size` -/
def AlterReplicaLogDirPartitionResult34.size (_version : Int16) (_t : AlterReplicaLogDirPartitionResult34) : Int32 :=
   (Sizeof.add Sizeof.int32 ;;
    Sizeof.add Sizeof.int16) 0

/-- message/messages.gen.go:9290-9293 `AlterReplicaLogDirPartitionResult34.Encode` -/
def AlterReplicaLogDirPartitionResult34.encode (_version : Int16) (t : AlterReplicaLogDirPartitionResult34) : Encoder → Encoder :=
    (·.putInt32 t.PartitionIndex) ;;
    (·.putInt16 t.ErrorCode)

/-- message/messages.gen.go:9296-9307 `AlterReplicaLogDirPartitionResult34.Decode`; the second argument is the receiver. -/
def AlterReplicaLogDirPartitionResult34.decode (_version : Int16) : AlterReplicaLogDirPartitionResult34 → Dec AlterReplicaLogDirPartitionResult34 :=
    Dec.field Dec.int32 (fun t x => { t with PartitionIndex := x }) ;>
    Dec.field Dec.int16 (fun t x => { t with ErrorCode := x })

/-- The type `AlterReplicaLogDirPartitionResult34` with its methods. -/
def AlterReplicaLogDirPartitionResult34.type : MsgType :=
  { name := "AlterReplicaLogDirPartitionResult34", T := AlterReplicaLogDirPartitionResult34, zero := {}, size := AlterReplicaLogDirPartitionResult34.size, encode := AlterReplicaLogDirPartitionResult34.encode,
    decode := AlterReplicaLogDirPartitionResult34.decode }

/-- message/messages.gen.go:9226-9229 `type AlterReplicaLogDirTopicResult34 struct`; the defaults are the Go zero values. -/
@[ext] structure AlterReplicaLogDirTopicResult34 where
  TopicName : GoString := []
  Partitions : Slice AlterReplicaLogDirPartitionResult34 := none

/-- message/messages.gen.go:9232-9240 `AlterReplicaLogDirTopicResult34.Size` -/
def AlterReplicaLogDirTopicResult34.size (version : Int16) (t : AlterReplicaLogDirTopicResult34) : Int32 :=
   (Sizeof.add (Sizeof.string t.TopicName) ;;
    Sizeof.structs (AlterReplicaLogDirPartitionResult34.size version) t.Partitions) 0

/-- message/messages.gen.go:9243-9251 `AlterReplicaLogDirTopicResult34.Encode` -/
def AlterReplicaLogDirTopicResult34.encode (version : Int16) (t : AlterReplicaLogDirTopicResult34) : Encoder → Encoder :=
    (·.putString t.TopicName) ;;
    Encoder.putStructs (AlterReplicaLogDirPartitionResult34.encode version) t.Partitions

/-- message/messages.gen.go:9254-9274 `AlterReplicaLogDirTopicResult34.Decode`; the second argument is the receiver. -/
def AlterReplicaLogDirTopicResult34.decode (version : Int16) : AlterReplicaLogDirTopicResult34 → Dec AlterReplicaLogDirTopicResult34 :=
    Dec.field Dec.string (fun t x => { t with TopicName := x }) ;>
    Dec.fieldStructs (AlterReplicaLogDirPartitionResult34.decode version {}) (·.Partitions) (fun t x => { t with Partitions := x })

/-- The type `AlterReplicaLogDirTopicResult34` with its methods. -/
def AlterReplicaLogDirTopicResult34.type : MsgType :=
  { name := "AlterReplicaLogDirTopicResult34", T := AlterReplicaLogDirTopicResult34, zero := {}, size := AlterReplicaLogDirTopicResult34.size, encode := AlterReplicaLogDirTopicResult34.encode,
    decode := AlterReplicaLogDirTopicResult34.decode }

/-- message/messages.gen.go:9176-9179 `type AlterReplicaLogDirsResponse struct`; the defaults are the Go zero values. -/
@[ext] structure AlterReplicaLogDirsResponse where
  ThrottleTimeMs : Int32 := 0
  Results : Slice AlterReplicaLogDirTopicResult34 := none

/-- message/messages.gen.go:9182-9190 `AlterReplicaLogDirsResponse.Size` -/
def AlterReplicaLogDirsResponse.size (version : Int16) (t : AlterReplicaLogDirsResponse) : Int32 :=
   (Sizeof.add Sizeof.int32 ;;
    Sizeof.structs (AlterReplicaLogDirTopicResult34.size version) t.Results) 0

/-- message/messages.gen.go:9193-9201 `AlterReplicaLogDirsResponse.Encode` -/
def AlterReplicaLogDirsResponse.encode (version : Int16) (t : AlterReplicaLogDirsResponse) : Encoder → Encoder :=
    (·.putInt32 t.ThrottleTimeMs) ;;
    Encoder.putStructs (AlterReplicaLogDirTopicResult34.encode version) t.Results

/-- message/messages.gen.go:9204-9224 `AlterReplicaLogDirsResponse.Decode`; the second argument is the receiver. -/
def AlterReplicaLogDirsResponse.decode (version : Int16) : AlterReplicaLogDirsResponse → Dec AlterReplicaLogDirsResponse :=
    Dec.field Dec.int32 (fun t x => { t with ThrottleTimeMs := x }) ;>
    Dec.fieldStructs (AlterReplicaLogDirTopicResult34.decode version {}) (·.Results) (fun t x => { t with Results := x })

/-- The type `AlterReplicaLogDirsResponse` with its methods. -/
def AlterReplicaLogDirsResponse.type : MsgType :=
  { name := "AlterReplicaLogDirsResponse", T := AlterReplicaLogDirsResponse, zero := {}, size := AlterReplicaLogDirsResponse.size, encode := AlterReplicaLogDirsResponse.encode,
    decode := AlterReplicaLogDirsResponse.decode }

end Kafka.Msg
