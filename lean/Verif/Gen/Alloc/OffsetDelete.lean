import Verif.Message.AllocLemmas
import Verif.Gen.Model.OffsetDelete
/-!
Generated by tools/gen_messages.py: memory asked for by decoding the OffsetDelete messages.
-/
namespace Kafka.Msg

/-- message/messages.gen.go:11742-11749 `OffsetDeleteRequestPartition47.Decode`, with the memory it asks for -/
def OffsetDeleteRequestPartition47.decodeA (_version : Int16) : OffsetDeleteRequestPartition47 → ADec OffsetDeleteRequestPartition47 :=
    ADec.field ADec.int32 (fun t x => { t with PartitionIndex := x })
theorem OffsetDeleteRequestPartition47.erases (version : Int16) (t : OffsetDeleteRequestPartition47) : Erases (OffsetDeleteRequestPartition47.decodeA version t) (OffsetDeleteRequestPartition47.decode version t) :=
  (ErasesStep.field (.free _) : ErasesStep _ _) t
theorem OffsetDeleteRequestPartition47.within (version : Int16) (t : OffsetDeleteRequestPartition47) : Within (OffsetDeleteRequestPartition47.decodeA version t) 4 0 :=
  ((WithinStep.field .int32 : WithinStep _ _ _) t).mono (by decide) (by decide)

/-- message/messages.gen.go:11703-11723 `OffsetDeleteRequestTopic47.Decode`, with the memory it asks for -/
def OffsetDeleteRequestTopic47.decodeA (version : Int16) : OffsetDeleteRequestTopic47 → ADec OffsetDeleteRequestTopic47 :=
    ADec.field ADec.string (fun t x => { t with Name := x }) ;>>
    ADec.fieldStructs (OffsetDeleteRequestPartition47.decodeA version {}) (·.Partitions) (fun t x => { t with Partitions := x })
theorem OffsetDeleteRequestTopic47.erases (version : Int16) (t : OffsetDeleteRequestTopic47) : Erases (OffsetDeleteRequestTopic47.decodeA version t) (OffsetDeleteRequestTopic47.decode version t) :=
  ((ErasesStep.field .string)
    |>.andThen (ErasesStep.structs (OffsetDeleteRequestPartition47.erases version {})) : ErasesStep _ _) t
theorem OffsetDeleteRequestTopic47.within (version : Int16) (t : OffsetDeleteRequestTopic47) : Within (OffsetDeleteRequestTopic47.decodeA version t) 6 1 :=
  (((WithinStep.field .string)
    |>.andThen (WithinStep.structs ((OffsetDeleteRequestPartition47.within version {}).mono (by decide) (Nat.le_refl _))) : WithinStep _ _ _) t).mono (by decide) (by decide)

/-- message/messages.gen.go:11653-11673 `OffsetDeleteRequest.Decode`, with the memory it asks for -/
def OffsetDeleteRequest.decodeA (version : Int16) : OffsetDeleteRequest → ADec OffsetDeleteRequest :=
    ADec.field ADec.string (fun t x => { t with GroupId := x }) ;>>
    ADec.fieldStructs (OffsetDeleteRequestTopic47.decodeA version {}) (·.Topics) (fun t x => { t with Topics := x })
theorem OffsetDeleteRequest.erases (version : Int16) (t : OffsetDeleteRequest) : Erases (OffsetDeleteRequest.decodeA version t) (OffsetDeleteRequest.decode version t) :=
  ((ErasesStep.field .string)
    |>.andThen (ErasesStep.structs (OffsetDeleteRequestTopic47.erases version {})) : ErasesStep _ _) t
theorem OffsetDeleteRequest.within (version : Int16) (t : OffsetDeleteRequest) : Within (OffsetDeleteRequest.decodeA version t) 6 2 :=
  (((WithinStep.field .string)
    |>.andThen (WithinStep.structs ((OffsetDeleteRequestTopic47.within version {}).mono (by decide) (Nat.le_refl _))) : WithinStep _ _ _) t).mono (by decide) (by decide)

/-- message/messages.gen.go:11879-11890 `OffsetDeleteResponsePartition47.Decode`, with the memory it asks for -/
def OffsetDeleteResponsePartition47.decodeA (_version : Int16) : OffsetDeleteResponsePartition47 → ADec OffsetDeleteResponsePartition47 :=
    ADec.field ADec.int32 (fun t x => { t with PartitionIndex := x }) ;>>
    ADec.field ADec.int16 (fun t x => { t with ErrorCode := x })
theorem OffsetDeleteResponsePartition47.erases (version : Int16) (t : OffsetDeleteResponsePartition47) : Erases (OffsetDeleteResponsePartition47.decodeA version t) (OffsetDeleteResponsePartition47.decode version t) :=
  ((ErasesStep.field (.free _))
    |>.andThen (ErasesStep.field (.free _)) : ErasesStep _ _) t
theorem OffsetDeleteResponsePartition47.within (version : Int16) (t : OffsetDeleteResponsePartition47) : Within (OffsetDeleteResponsePartition47.decodeA version t) 6 0 :=
  (((WithinStep.field .int32)
    |>.andThen (WithinStep.field .int16) : WithinStep _ _ _) t).mono (by decide) (by decide)

/-- message/messages.gen.go:11837-11857 `OffsetDeleteResponseTopic47.Decode`, with the memory it asks for -/
def OffsetDeleteResponseTopic47.decodeA (version : Int16) : OffsetDeleteResponseTopic47 → ADec OffsetDeleteResponseTopic47 :=
    ADec.field ADec.string (fun t x => { t with Name := x }) ;>>
    ADec.fieldStructs (OffsetDeleteResponsePartition47.decodeA version {}) (·.Partitions) (fun t x => { t with Partitions := x })
theorem OffsetDeleteResponseTopic47.erases (version : Int16) (t : OffsetDeleteResponseTopic47) : Erases (OffsetDeleteResponseTopic47.decodeA version t) (OffsetDeleteResponseTopic47.decode version t) :=
  ((ErasesStep.field .string)
    |>.andThen (ErasesStep.structs (OffsetDeleteResponsePartition47.erases version {})) : ErasesStep _ _) t
theorem OffsetDeleteResponseTopic47.within (version : Int16) (t : OffsetDeleteResponseTopic47) : Within (OffsetDeleteResponseTopic47.decodeA version t) 6 1 :=
  (((WithinStep.field .string)
    |>.andThen (WithinStep.structs ((OffsetDeleteResponsePartition47.within version {}).mono (by decide) (Nat.le_refl _))) : WithinStep _ _ _) t).mono (by decide) (by decide)

/-- message/messages.gen.go:11783-11807 `OffsetDeleteResponse.Decode`, with the memory it asks for -/
def OffsetDeleteResponse.decodeA (version : Int16) : OffsetDeleteResponse → ADec OffsetDeleteResponse :=
    ADec.field ADec.int16 (fun t x => { t with ErrorCode := x }) ;>>
    ADec.field ADec.int32 (fun t x => { t with ThrottleTimeMs := x }) ;>>
    ADec.fieldStructs (OffsetDeleteResponseTopic47.decodeA version {}) (·.Topics) (fun t x => { t with Topics := x })
theorem OffsetDeleteResponse.erases (version : Int16) (t : OffsetDeleteResponse) : Erases (OffsetDeleteResponse.decodeA version t) (OffsetDeleteResponse.decode version t) :=
  ((ErasesStep.field (.free _))
    |>.andThen (ErasesStep.field (.free _))
    |>.andThen (ErasesStep.structs (OffsetDeleteResponseTopic47.erases version {})) : ErasesStep _ _) t
theorem OffsetDeleteResponse.within (version : Int16) (t : OffsetDeleteResponse) : Within (OffsetDeleteResponse.decodeA version t) 10 2 :=
  (((WithinStep.field .int16)
    |>.andThen (WithinStep.field .int32)
    |>.andThen (WithinStep.structs ((OffsetDeleteResponseTopic47.within version {}).mono (by decide) (Nat.le_refl _))) : WithinStep _ _ _) t).mono (by decide) (by decide)

end Kafka.Msg
