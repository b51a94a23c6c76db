import Verif.Message.AllocLemmas
import Verif.Gen.Model.OffsetFetch
/-!
Generated by tools/gen_messages.py: memory asked for by decoding the OffsetFetch messages.
-/
namespace Kafka.Msg

/-- message/messages.gen.go:3704-3715 `OffsetFetchRequestTopic9.Decode`, with the memory it asks for -/
def OffsetFetchRequestTopic9.decodeA (_version : Int16) : OffsetFetchRequestTopic9 → ADec OffsetFetchRequestTopic9 :=
    ADec.field ADec.string (fun t x => { t with Name := x }) ;>>
    ADec.field ADec.int32Array (fun t x => { t with PartitionIndexes := x })
theorem OffsetFetchRequestTopic9.erases (version : Int16) (t : OffsetFetchRequestTopic9) : Erases (OffsetFetchRequestTopic9.decodeA version t) (OffsetFetchRequestTopic9.decode version t) :=
  ((ErasesStep.field .string)
    |>.andThen (ErasesStep.field (.arrayOf (.free _))) : ErasesStep _ _) t
theorem OffsetFetchRequestTopic9.within (version : Int16) (t : OffsetFetchRequestTopic9) : Within (OffsetFetchRequestTopic9.decodeA version t) 6 1 :=
  (((WithinStep.field .string)
    |>.andThen (WithinStep.field .int32Array) : WithinStep _ _ _) t).mono (by decide) (by decide)

/-- message/messages.gen.go:3662-3682 `OffsetFetchRequest.Decode`, with the memory it asks for -/
def OffsetFetchRequest.decodeA (version : Int16) : OffsetFetchRequest → ADec OffsetFetchRequest :=
    ADec.field ADec.string (fun t x => { t with GroupId := x }) ;>>
    ADec.fieldStructs (OffsetFetchRequestTopic9.decodeA version {}) (·.Topics) (fun t x => { t with Topics := x })
theorem OffsetFetchRequest.erases (version : Int16) (t : OffsetFetchRequest) : Erases (OffsetFetchRequest.decodeA version t) (OffsetFetchRequest.decode version t) :=
  ((ErasesStep.field .string)
    |>.andThen (ErasesStep.structs (OffsetFetchRequestTopic9.erases version {})) : ErasesStep _ _) t
theorem OffsetFetchRequest.within (version : Int16) (t : OffsetFetchRequest) : Within (OffsetFetchRequest.decodeA version t) 6 2 :=
  (((WithinStep.field .string)
    |>.andThen (WithinStep.structs ((OffsetFetchRequestTopic9.within version {}).mono (by decide) (Nat.le_refl _))) : WithinStep _ _ _) t).mono (by decide) (by decide)

/-- message/messages.gen.go:3870-3895 `OffsetFetchResponsePartition9.Decode`, with the memory it asks for -/
def OffsetFetchResponsePartition9.decodeA (version : Int16) : OffsetFetchResponsePartition9 → ADec OffsetFetchResponsePartition9 :=
    ADec.field ADec.int32 (fun t x => { t with PartitionIndex := x }) ;>>
    ADec.field ADec.int64 (fun t x => { t with CommittedOffset := x }) ;>>
    ADec.onlyIf (version ≥ 5) (ADec.field ADec.int32 (fun t x => { t with CommittedLeaderEpoch := x })) ;>>
    ADec.field ADec.string (fun t x => { t with Metadata := x }) ;>>
    ADec.field ADec.int16 (fun t x => { t with ErrorCode := x })
theorem OffsetFetchResponsePartition9.erases (version : Int16) (t : OffsetFetchResponsePartition9) : Erases (OffsetFetchResponsePartition9.decodeA version t) (OffsetFetchResponsePartition9.decode version t) :=
  ((ErasesStep.field (.free _))
    |>.andThen (ErasesStep.field (.free _))
    |>.andThen (ErasesStep.onlyIf (ErasesStep.field (.free _)))
    |>.andThen (ErasesStep.field .string)
    |>.andThen (ErasesStep.field (.free _)) : ErasesStep _ _) t
theorem OffsetFetchResponsePartition9.within (version : Int16) (t : OffsetFetchResponsePartition9) : Within (OffsetFetchResponsePartition9.decodeA version t) 16 0 :=
  (((WithinStep.field .int32)
    |>.andThen (WithinStep.field .int64)
    |>.andThen (WithinStep.onlyIf (fun _ => WithinStep.field .int32))
    |>.andThen (WithinStep.field .string)
    |>.andThen (WithinStep.field .int16) : WithinStep _ _ _) t).mono (by decide) (by decide)

/-- message/messages.gen.go:3815-3835 `OffsetFetchResponseTopic9.Decode`, with the memory it asks for -/
def OffsetFetchResponseTopic9.decodeA (version : Int16) : OffsetFetchResponseTopic9 → ADec OffsetFetchResponseTopic9 :=
    ADec.field ADec.string (fun t x => { t with Name := x }) ;>>
    ADec.fieldStructs (OffsetFetchResponsePartition9.decodeA version {}) (·.Partitions) (fun t x => { t with Partitions := x })
theorem OffsetFetchResponseTopic9.erases (version : Int16) (t : OffsetFetchResponseTopic9) : Erases (OffsetFetchResponseTopic9.decodeA version t) (OffsetFetchResponseTopic9.decode version t) :=
  ((ErasesStep.field .string)
    |>.andThen (ErasesStep.structs (OffsetFetchResponsePartition9.erases version {})) : ErasesStep _ _) t
theorem OffsetFetchResponseTopic9.within (version : Int16) (t : OffsetFetchResponseTopic9) : Within (OffsetFetchResponseTopic9.decodeA version t) 6 1 :=
  (((WithinStep.field .string)
    |>.andThen (WithinStep.structs ((OffsetFetchResponsePartition9.within version {}).mono (by decide) (Nat.le_refl _))) : WithinStep _ _ _) t).mono (by decide) (by decide)

/-- message/messages.gen.go:3757-3785 `OffsetFetchResponse.Decode`, with the memory it asks for -/
def OffsetFetchResponse.decodeA (version : Int16) : OffsetFetchResponse → ADec OffsetFetchResponse :=
    ADec.onlyIf (version ≥ 3) (ADec.field ADec.int32 (fun t x => { t with ThrottleTimeMs := x })) ;>>
    ADec.fieldStructs (OffsetFetchResponseTopic9.decodeA version {}) (·.Topics) (fun t x => { t with Topics := x }) ;>>
    ADec.onlyIf (version ≥ 2) (ADec.field ADec.int16 (fun t x => { t with ErrorCode := x }))
theorem OffsetFetchResponse.erases (version : Int16) (t : OffsetFetchResponse) : Erases (OffsetFetchResponse.decodeA version t) (OffsetFetchResponse.decode version t) :=
  ((ErasesStep.onlyIf (ErasesStep.field (.free _)))
    |>.andThen (ErasesStep.structs (OffsetFetchResponseTopic9.erases version {}))
    |>.andThen (ErasesStep.onlyIf (ErasesStep.field (.free _))) : ErasesStep _ _) t
theorem OffsetFetchResponse.within (version : Int16) (t : OffsetFetchResponse) : Within (OffsetFetchResponse.decodeA version t) 4 2 :=
  (((WithinStep.onlyIf (fun _ => WithinStep.field .int32))
    |>.andThen (WithinStep.structs ((OffsetFetchResponseTopic9.within version {}).mono (by decide) (Nat.le_refl _)))
    |>.andThen (WithinStep.onlyIf (fun _ => WithinStep.field .int16)) : WithinStep _ _ _) t).mono (by decide) (by decide)

end Kafka.Msg
