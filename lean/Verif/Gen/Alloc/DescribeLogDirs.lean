import Verif.Message.AllocLemmas
import Verif.Gen.Model.DescribeLogDirs
/-!
Generated by tools/gen_messages.py: memory asked for by decoding the DescribeLogDirs messages.
-/
namespace Kafka.Msg

/-- message/messages.gen.go:9373-9384 `DescribableLogDirTopic35.Decode`, with the memory it asks for -/
def DescribableLogDirTopic35.decodeA (_version : Int16) : DescribableLogDirTopic35 → ADec DescribableLogDirTopic35 :=
    ADec.field ADec.string (fun t x => { t with Topic := x }) ;>>
    ADec.field ADec.int32Array (fun t x => { t with PartitionIndex := x })
theorem DescribableLogDirTopic35.erases (version : Int16) (t : DescribableLogDirTopic35) : Erases (DescribableLogDirTopic35.decodeA version t) (DescribableLogDirTopic35.decode version t) :=
  ((ErasesStep.field .string)
    |>.andThen (ErasesStep.field (.arrayOf (.free _))) : ErasesStep _ _) t
theorem DescribableLogDirTopic35.within (version : Int16) (t : DescribableLogDirTopic35) : Within (DescribableLogDirTopic35.decodeA version t) 6 1 :=
  (((WithinStep.field .string)
    |>.andThen (WithinStep.field .int32Array) : WithinStep _ _ _) t).mono (by decide) (by decide)

/-- message/messages.gen.go:9335-9351 `DescribeLogDirsRequest.Decode`, with the memory it asks for -/
def DescribeLogDirsRequest.decodeA (version : Int16) : DescribeLogDirsRequest → ADec DescribeLogDirsRequest :=
    ADec.fieldStructs (DescribableLogDirTopic35.decodeA version {}) (·.Topics) (fun t x => { t with Topics := x })
theorem DescribeLogDirsRequest.erases (version : Int16) (t : DescribeLogDirsRequest) : Erases (DescribeLogDirsRequest.decodeA version t) (DescribeLogDirsRequest.decode version t) :=
  (ErasesStep.structs (DescribableLogDirTopic35.erases version {}) : ErasesStep _ _) t
theorem DescribeLogDirsRequest.within (version : Int16) (t : DescribeLogDirsRequest) : Within (DescribeLogDirsRequest.decodeA version t) 4 2 :=
  ((WithinStep.structs ((DescribableLogDirTopic35.within version {}).mono (by decide) (Nat.le_refl _)) : WithinStep _ _ _) t).mono (by decide) (by decide)

/-- message/messages.gen.go:9570-9589 `DescribeLogDirsPartition35.Decode`, with the memory it asks for -/
def DescribeLogDirsPartition35.decodeA (_version : Int16) : DescribeLogDirsPartition35 → ADec DescribeLogDirsPartition35 :=
    ADec.field ADec.int32 (fun t x => { t with PartitionIndex := x }) ;>>
    ADec.field ADec.int64 (fun t x => { t with PartitionSize := x }) ;>>
    ADec.field ADec.int64 (fun t x => { t with OffsetLag := x }) ;>>
    ADec.field ADec.bool (fun t x => { t with IsFutureKey := x })
theorem DescribeLogDirsPartition35.erases (version : Int16) (t : DescribeLogDirsPartition35) : Erases (DescribeLogDirsPartition35.decodeA version t) (DescribeLogDirsPartition35.decode version t) :=
  ((ErasesStep.field (.free _))
    |>.andThen (ErasesStep.field (.free _))
    |>.andThen (ErasesStep.field (.free _))
    |>.andThen (ErasesStep.field (.free _)) : ErasesStep _ _) t
theorem DescribeLogDirsPartition35.within (version : Int16) (t : DescribeLogDirsPartition35) : Within (DescribeLogDirsPartition35.decodeA version t) 21 0 :=
  (((WithinStep.field .int32)
    |>.andThen (WithinStep.field .int64)
    |>.andThen (WithinStep.field .int64)
    |>.andThen (WithinStep.field .bool) : WithinStep _ _ _) t).mono (by decide) (by decide)

/-- message/messages.gen.go:9522-9542 `DescribeLogDirsTopic35.Decode`, with the memory it asks for -/
def DescribeLogDirsTopic35.decodeA (version : Int16) : DescribeLogDirsTopic35 → ADec DescribeLogDirsTopic35 :=
    ADec.field ADec.string (fun t x => { t with Name := x }) ;>>
    ADec.fieldStructs (DescribeLogDirsPartition35.decodeA version {}) (·.Partitions) (fun t x => { t with Partitions := x })
theorem DescribeLogDirsTopic35.erases (version : Int16) (t : DescribeLogDirsTopic35) : Erases (DescribeLogDirsTopic35.decodeA version t) (DescribeLogDirsTopic35.decode version t) :=
  ((ErasesStep.field .string)
    |>.andThen (ErasesStep.structs (DescribeLogDirsPartition35.erases version {})) : ErasesStep _ _) t
theorem DescribeLogDirsTopic35.within (version : Int16) (t : DescribeLogDirsTopic35) : Within (DescribeLogDirsTopic35.decodeA version t) 6 1 :=
  (((WithinStep.field .string)
    |>.andThen (WithinStep.structs ((DescribeLogDirsPartition35.within version {}).mono (by decide) (Nat.le_refl _))) : WithinStep _ _ _) t).mono (by decide) (by decide)

/-- message/messages.gen.go:9468-9492 `DescribeLogDirsResult35.Decode`, with the memory it asks for -/
def DescribeLogDirsResult35.decodeA (version : Int16) : DescribeLogDirsResult35 → ADec DescribeLogDirsResult35 :=
    ADec.field ADec.int16 (fun t x => { t with ErrorCode := x }) ;>>
    ADec.field ADec.string (fun t x => { t with LogDir := x }) ;>>
    ADec.fieldStructs (DescribeLogDirsTopic35.decodeA version {}) (·.Topics) (fun t x => { t with Topics := x })
theorem DescribeLogDirsResult35.erases (version : Int16) (t : DescribeLogDirsResult35) : Erases (DescribeLogDirsResult35.decodeA version t) (DescribeLogDirsResult35.decode version t) :=
  ((ErasesStep.field (.free _))
    |>.andThen (ErasesStep.field .string)
    |>.andThen (ErasesStep.structs (DescribeLogDirsTopic35.erases version {})) : ErasesStep _ _) t
theorem DescribeLogDirsResult35.within (version : Int16) (t : DescribeLogDirsResult35) : Within (DescribeLogDirsResult35.decodeA version t) 8 2 :=
  (((WithinStep.field .int16)
    |>.andThen (WithinStep.field .string)
    |>.andThen (WithinStep.structs ((DescribeLogDirsTopic35.within version {}).mono (by decide) (Nat.le_refl _))) : WithinStep _ _ _) t).mono (by decide) (by decide)

/-- message/messages.gen.go:9415-9435 `DescribeLogDirsResponse.Decode`, with the memory it asks for -/
def DescribeLogDirsResponse.decodeA (version : Int16) : DescribeLogDirsResponse → ADec DescribeLogDirsResponse :=
    ADec.field ADec.int32 (fun t x => { t with ThrottleTimeMs := x }) ;>>
    ADec.fieldStructs (DescribeLogDirsResult35.decodeA version {}) (·.Results) (fun t x => { t with Results := x })
theorem DescribeLogDirsResponse.erases (version : Int16) (t : DescribeLogDirsResponse) : Erases (DescribeLogDirsResponse.decodeA version t) (DescribeLogDirsResponse.decode version t) :=
  ((ErasesStep.field (.free _))
    |>.andThen (ErasesStep.structs (DescribeLogDirsResult35.erases version {})) : ErasesStep _ _) t
theorem DescribeLogDirsResponse.within (version : Int16) (t : DescribeLogDirsResponse) : Within (DescribeLogDirsResponse.decodeA version t) 8 3 :=
  (((WithinStep.field .int32)
    |>.andThen (WithinStep.structs ((DescribeLogDirsResult35.within version {}).mono (by decide) (Nat.le_refl _))) : WithinStep _ _ _) t).mono (by decide) (by decide)

end Kafka.Msg
