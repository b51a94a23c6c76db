import Verif.Message.AllocLemmas
import Verif.Gen.Model.AlterReplicaLogDirs
/-!
Generated by tools/gen_messages.py: memory asked for by decoding the AlterReplicaLogDirs messages.
-/
namespace Kafka.Msg

/-- message/messages.gen.go:9162-9173 `AlterReplicaLogDirTopic34.Decode`, with the memory it asks for -/
def AlterReplicaLogDirTopic34.decodeA (_version : Int16) : AlterReplicaLogDirTopic34 → ADec AlterReplicaLogDirTopic34 :=
    ADec.field ADec.string (fun t x => { t with Name := x }) ;>>
    ADec.field ADec.int32Array (fun t x => { t with Partitions := x })
theorem AlterReplicaLogDirTopic34.erases (version : Int16) (t : AlterReplicaLogDirTopic34) : Erases (AlterReplicaLogDirTopic34.decodeA version t) (AlterReplicaLogDirTopic34.decode version t) :=
  ((ErasesStep.field .string)
    |>.andThen (ErasesStep.field (.arrayOf (.free _))) : ErasesStep _ _) t
theorem AlterReplicaLogDirTopic34.within (version : Int16) (t : AlterReplicaLogDirTopic34) : Within (AlterReplicaLogDirTopic34.decodeA version t) 6 1 :=
  (((WithinStep.field .string)
    |>.andThen (WithinStep.field .int32Array) : WithinStep _ _ _) t).mono (by decide) (by decide)

/-- message/messages.gen.go:9120-9140 `AlterReplicaLogDir34.Decode`, with the memory it asks for -/
def AlterReplicaLogDir34.decodeA (version : Int16) : AlterReplicaLogDir34 → ADec AlterReplicaLogDir34 :=
    ADec.field ADec.string (fun t x => { t with Path := x }) ;>>
    ADec.fieldStructs (AlterReplicaLogDirTopic34.decodeA version {}) (·.Topics) (fun t x => { t with Topics := x })
theorem AlterReplicaLogDir34.erases (version : Int16) (t : AlterReplicaLogDir34) : Erases (AlterReplicaLogDir34.decodeA version t) (AlterReplicaLogDir34.decode version t) :=
  ((ErasesStep.field .string)
    |>.andThen (ErasesStep.structs (AlterReplicaLogDirTopic34.erases version {})) : ErasesStep _ _) t
theorem AlterReplicaLogDir34.within (version : Int16) (t : AlterReplicaLogDir34) : Within (AlterReplicaLogDir34.decodeA version t) 6 2 :=
  (((WithinStep.field .string)
    |>.andThen (WithinStep.structs ((AlterReplicaLogDirTopic34.within version {}).mono (by decide) (Nat.le_refl _))) : WithinStep _ _ _) t).mono (by decide) (by decide)

/-- message/messages.gen.go:9074-9090 `AlterReplicaLogDirsRequest.Decode`, with the memory it asks for -/
def AlterReplicaLogDirsRequest.decodeA (version : Int16) : AlterReplicaLogDirsRequest → ADec AlterReplicaLogDirsRequest :=
    ADec.fieldStructs (AlterReplicaLogDir34.decodeA version {}) (·.Dirs) (fun t x => { t with Dirs := x })
theorem AlterReplicaLogDirsRequest.erases (version : Int16) (t : AlterReplicaLogDirsRequest) : Erases (AlterReplicaLogDirsRequest.decodeA version t) (AlterReplicaLogDirsRequest.decode version t) :=
  (ErasesStep.structs (AlterReplicaLogDir34.erases version {}) : ErasesStep _ _) t
theorem AlterReplicaLogDirsRequest.within (version : Int16) (t : AlterReplicaLogDirsRequest) : Within (AlterReplicaLogDirsRequest.decodeA version t) 4 3 :=
  ((WithinStep.structs ((AlterReplicaLogDir34.within version {}).mono (by decide) (Nat.le_refl _)) : WithinStep _ _ _) t).mono (by decide) (by decide)

/-- message/messages.gen.go:9296-9307 `AlterReplicaLogDirPartitionResult34.Decode`, with the memory it asks for -/
def AlterReplicaLogDirPartitionResult34.decodeA (_version : Int16) : AlterReplicaLogDirPartitionResult34 → ADec AlterReplicaLogDirPartitionResult34 :=
    ADec.field ADec.int32 (fun t x => { t with PartitionIndex := x }) ;>>
    ADec.field ADec.int16 (fun t x => { t with ErrorCode := x })
theorem AlterReplicaLogDirPartitionResult34.erases (version : Int16) (t : AlterReplicaLogDirPartitionResult34) : Erases (AlterReplicaLogDirPartitionResult34.decodeA version t) (AlterReplicaLogDirPartitionResult34.decode version t) :=
  ((ErasesStep.field (.free _))
    |>.andThen (ErasesStep.field (.free _)) : ErasesStep _ _) t
theorem AlterReplicaLogDirPartitionResult34.within (version : Int16) (t : AlterReplicaLogDirPartitionResult34) : Within (AlterReplicaLogDirPartitionResult34.decodeA version t) 6 0 :=
  (((WithinStep.field .int32)
    |>.andThen (WithinStep.field .int16) : WithinStep _ _ _) t).mono (by decide) (by decide)

/-- message/messages.gen.go:9254-9274 `AlterReplicaLogDirTopicResult34.Decode`, with the memory it asks for -/
def AlterReplicaLogDirTopicResult34.decodeA (version : Int16) : AlterReplicaLogDirTopicResult34 → ADec AlterReplicaLogDirTopicResult34 :=
    ADec.field ADec.string (fun t x => { t with TopicName := x }) ;>>
    ADec.fieldStructs (AlterReplicaLogDirPartitionResult34.decodeA version {}) (·.Partitions) (fun t x => { t with Partitions := x })
theorem AlterReplicaLogDirTopicResult34.erases (version : Int16) (t : AlterReplicaLogDirTopicResult34) : Erases (AlterReplicaLogDirTopicResult34.decodeA version t) (AlterReplicaLogDirTopicResult34.decode version t) :=
  ((ErasesStep.field .string)
    |>.andThen (ErasesStep.structs (AlterReplicaLogDirPartitionResult34.erases version {})) : ErasesStep _ _) t
theorem AlterReplicaLogDirTopicResult34.within (version : Int16) (t : AlterReplicaLogDirTopicResult34) : Within (AlterReplicaLogDirTopicResult34.decodeA version t) 6 1 :=
  (((WithinStep.field .string)
    |>.andThen (WithinStep.structs ((AlterReplicaLogDirPartitionResult34.within version {}).mono (by decide) (Nat.le_refl _))) : WithinStep _ _ _) t).mono (by decide) (by decide)

/-- message/messages.gen.go:9204-9224 `AlterReplicaLogDirsResponse.Decode`, with the memory it asks for -/
def AlterReplicaLogDirsResponse.decodeA (version : Int16) : AlterReplicaLogDirsResponse → ADec AlterReplicaLogDirsResponse :=
    ADec.field ADec.int32 (fun t x => { t with ThrottleTimeMs := x }) ;>>
    ADec.fieldStructs (AlterReplicaLogDirTopicResult34.decodeA version {}) (·.Results) (fun t x => { t with Results := x })
theorem AlterReplicaLogDirsResponse.erases (version : Int16) (t : AlterReplicaLogDirsResponse) : Erases (AlterReplicaLogDirsResponse.decodeA version t) (AlterReplicaLogDirsResponse.decode version t) :=
  ((ErasesStep.field (.free _))
    |>.andThen (ErasesStep.structs (AlterReplicaLogDirTopicResult34.erases version {})) : ErasesStep _ _) t
theorem AlterReplicaLogDirsResponse.within (version : Int16) (t : AlterReplicaLogDirsResponse) : Within (AlterReplicaLogDirsResponse.decodeA version t) 8 2 :=
  (((WithinStep.field .int32)
    |>.andThen (WithinStep.structs ((AlterReplicaLogDirTopicResult34.within version {}).mono (by decide) (Nat.le_refl _))) : WithinStep _ _ _) t).mono (by decide) (by decide)

end Kafka.Msg
