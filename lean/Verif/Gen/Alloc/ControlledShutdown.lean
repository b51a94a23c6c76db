import Verif.Message.AllocLemmas
import Verif.Gen.Model.ControlledShutdown
/-!
Generated by tools/gen_messages.py: memory asked for by decoding the ControlledShutdown messages.
-/
namespace Kafka.Msg

/-- message/messages.gen.go:3188-3201 `ControlledShutdownRequest.Decode`, with the memory it asks for -/
def ControlledShutdownRequest.decodeA (version : Int16) : ControlledShutdownRequest → ADec ControlledShutdownRequest :=
    ADec.field ADec.int32 (fun t x => { t with BrokerId := x }) ;>>
    ADec.onlyIf (version ≥ 2) (ADec.field ADec.int64 (fun t x => { t with BrokerEpoch := x }))
theorem ControlledShutdownRequest.erases (version : Int16) (t : ControlledShutdownRequest) : Erases (ControlledShutdownRequest.decodeA version t) (ControlledShutdownRequest.decode version t) :=
  ((ErasesStep.field (.free _))
    |>.andThen (ErasesStep.onlyIf (ErasesStep.field (.free _))) : ErasesStep _ _) t
theorem ControlledShutdownRequest.within (version : Int16) (t : ControlledShutdownRequest) : Within (ControlledShutdownRequest.decodeA version t) 4 0 :=
  (((WithinStep.field .int32)
    |>.andThen (WithinStep.onlyIf (fun _ => WithinStep.field .int64)) : WithinStep _ _ _) t).mono (by decide) (by decide)

/-- message/messages.gen.go:3274-3285 `RemainingPartition7.Decode`, with the memory it asks for -/
def RemainingPartition7.decodeA (_version : Int16) : RemainingPartition7 → ADec RemainingPartition7 :=
    ADec.field ADec.string (fun t x => { t with TopicName := x }) ;>>
    ADec.field ADec.int32 (fun t x => { t with PartitionIndex := x })
theorem RemainingPartition7.erases (version : Int16) (t : RemainingPartition7) : Erases (RemainingPartition7.decodeA version t) (RemainingPartition7.decode version t) :=
  ((ErasesStep.field .string)
    |>.andThen (ErasesStep.field (.free _)) : ErasesStep _ _) t
theorem RemainingPartition7.within (version : Int16) (t : RemainingPartition7) : Within (RemainingPartition7.decodeA version t) 6 0 :=
  (((WithinStep.field .string)
    |>.andThen (WithinStep.field .int32) : WithinStep _ _ _) t).mono (by decide) (by decide)

/-- message/messages.gen.go:3232-3252 `ControlledShutdownResponse.Decode`, with the memory it asks for -/
def ControlledShutdownResponse.decodeA (version : Int16) : ControlledShutdownResponse → ADec ControlledShutdownResponse :=
    ADec.field ADec.int16 (fun t x => { t with ErrorCode := x }) ;>>
    ADec.fieldStructs (RemainingPartition7.decodeA version {}) (·.RemainingPartitions) (fun t x => { t with RemainingPartitions := x })
theorem ControlledShutdownResponse.erases (version : Int16) (t : ControlledShutdownResponse) : Erases (ControlledShutdownResponse.decodeA version t) (ControlledShutdownResponse.decode version t) :=
  ((ErasesStep.field (.free _))
    |>.andThen (ErasesStep.structs (RemainingPartition7.erases version {})) : ErasesStep _ _) t
theorem ControlledShutdownResponse.within (version : Int16) (t : ControlledShutdownResponse) : Within (ControlledShutdownResponse.decodeA version t) 6 1 :=
  (((WithinStep.field .int16)
    |>.andThen (WithinStep.structs ((RemainingPartition7.within version {}).mono (by decide) (Nat.le_refl _))) : WithinStep _ _ _) t).mono (by decide) (by decide)

end Kafka.Msg
