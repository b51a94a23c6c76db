import Verif.Message.AllocLemmas
import Verif.Gen.Model.StopReplica
/-!
Generated by tools/gen_messages.py: memory asked for by decoding the StopReplica messages.
-/
namespace Kafka.Msg

/-- message/messages.gen.go:2530-2545 `StopReplicaPartitionV05.Decode`, with the memory it asks for -/
def StopReplicaPartitionV05.decodeA (version : Int16) : StopReplicaPartitionV05 → ADec StopReplicaPartitionV05 :=
    ADec.onlyIf (version ≥ 0 ∧ version ≤ 0) (ADec.field ADec.string (fun t x => { t with TopicName := x })) ;>>
    ADec.onlyIf (version ≥ 0 ∧ version ≤ 0) (ADec.field ADec.int32 (fun t x => { t with PartitionIndex := x }))
theorem StopReplicaPartitionV05.erases (version : Int16) (t : StopReplicaPartitionV05) : Erases (StopReplicaPartitionV05.decodeA version t) (StopReplicaPartitionV05.decode version t) :=
  ((ErasesStep.onlyIf (ErasesStep.field .string))
    |>.andThen (ErasesStep.onlyIf (ErasesStep.field (.free _))) : ErasesStep _ _) t
theorem StopReplicaPartitionV05.within (version : Int16) (t : StopReplicaPartitionV05) (h : version ≥ 0 ∧ version ≤ 0) : Within (StopReplicaPartitionV05.decodeA version t) 2 0 :=
  (((WithinStep.present h (WithinStep.field .string))
    |>.andThen (WithinStep.onlyIf (fun _ => WithinStep.field .int32)) : WithinStep _ _ _) t).mono (by decide) (by decide)

/-- message/messages.gen.go:2575-2590 `StopReplicaTopic5.Decode`, with the memory it asks for -/
def StopReplicaTopic5.decodeA (version : Int16) : StopReplicaTopic5 → ADec StopReplicaTopic5 :=
    ADec.onlyIf (version ≥ 1) (ADec.field ADec.string (fun t x => { t with Name := x })) ;>>
    ADec.onlyIf (version ≥ 1) (ADec.field ADec.int32Array (fun t x => { t with PartitionIndexes := x }))
theorem StopReplicaTopic5.erases (version : Int16) (t : StopReplicaTopic5) : Erases (StopReplicaTopic5.decodeA version t) (StopReplicaTopic5.decode version t) :=
  ((ErasesStep.onlyIf (ErasesStep.field .string))
    |>.andThen (ErasesStep.onlyIf (ErasesStep.field (.arrayOf (.free _)))) : ErasesStep _ _) t
theorem StopReplicaTopic5.within (version : Int16) (t : StopReplicaTopic5) (h : version ≥ 1) : Within (StopReplicaTopic5.decodeA version t) 2 1 :=
  (((WithinStep.present h (WithinStep.field .string))
    |>.andThen (WithinStep.onlyIf (fun _ => WithinStep.field .int32Array)) : WithinStep _ _ _) t).mono (by decide) (by decide)

/-- message/messages.gen.go:2449-2500 `StopReplicaRequest.Decode`, with the memory it asks for -/
def StopReplicaRequest.decodeA (version : Int16) : StopReplicaRequest → ADec StopReplicaRequest :=
    ADec.field ADec.int32 (fun t x => { t with ControllerId := x }) ;>>
    ADec.field ADec.int32 (fun t x => { t with ControllerEpoch := x }) ;>>
    ADec.onlyIf (version ≥ 1) (ADec.field ADec.int64 (fun t x => { t with BrokerEpoch := x })) ;>>
    ADec.field ADec.bool (fun t x => { t with DeletePartitions := x }) ;>>
    ADec.onlyIf (version ≥ 0 ∧ version ≤ 0) (ADec.fieldStructs (StopReplicaPartitionV05.decodeA version {}) (·.UngroupedPartitions) (fun t x => { t with UngroupedPartitions := x })) ;>>
    ADec.onlyIf (version ≥ 1) (ADec.fieldStructs (StopReplicaTopic5.decodeA version {}) (·.Topics) (fun t x => { t with Topics := x }))
theorem StopReplicaRequest.erases (version : Int16) (t : StopReplicaRequest) : Erases (StopReplicaRequest.decodeA version t) (StopReplicaRequest.decode version t) :=
  ((ErasesStep.field (.free _))
    |>.andThen (ErasesStep.field (.free _))
    |>.andThen (ErasesStep.onlyIf (ErasesStep.field (.free _)))
    |>.andThen (ErasesStep.field (.free _))
    |>.andThen (ErasesStep.onlyIf (ErasesStep.structs (StopReplicaPartitionV05.erases version {})))
    |>.andThen (ErasesStep.onlyIf (ErasesStep.structs (StopReplicaTopic5.erases version {}))) : ErasesStep _ _) t
theorem StopReplicaRequest.within (version : Int16) (t : StopReplicaRequest) : Within (StopReplicaRequest.decodeA version t) 9 2 :=
  (((WithinStep.field .int32)
    |>.andThen (WithinStep.field .int32)
    |>.andThen (WithinStep.onlyIf (fun _ => WithinStep.field .int64))
    |>.andThen (WithinStep.field .bool)
    |>.andThen (WithinStep.onlyIf (fun h => WithinStep.structs ((StopReplicaPartitionV05.within version {} h).mono (by decide) (Nat.le_refl _))))
    |>.andThen (WithinStep.onlyIf (fun h => WithinStep.structs ((StopReplicaTopic5.within version {} h).mono (by decide) (Nat.le_refl _)))) : WithinStep _ _ _) t).mono (by decide) (by decide)

/-- message/messages.gen.go:2666-2681 `StopReplicaPartitionError5.Decode`, with the memory it asks for -/
def StopReplicaPartitionError5.decodeA (_version : Int16) : StopReplicaPartitionError5 → ADec StopReplicaPartitionError5 :=
    ADec.field ADec.string (fun t x => { t with TopicName := x }) ;>>
    ADec.field ADec.int32 (fun t x => { t with PartitionIndex := x }) ;>>
    ADec.field ADec.int16 (fun t x => { t with ErrorCode := x })
theorem StopReplicaPartitionError5.erases (version : Int16) (t : StopReplicaPartitionError5) : Erases (StopReplicaPartitionError5.decodeA version t) (StopReplicaPartitionError5.decode version t) :=
  ((ErasesStep.field .string)
    |>.andThen (ErasesStep.field (.free _))
    |>.andThen (ErasesStep.field (.free _)) : ErasesStep _ _) t
theorem StopReplicaPartitionError5.within (version : Int16) (t : StopReplicaPartitionError5) : Within (StopReplicaPartitionError5.decodeA version t) 8 0 :=
  (((WithinStep.field .string)
    |>.andThen (WithinStep.field .int32)
    |>.andThen (WithinStep.field .int16) : WithinStep _ _ _) t).mono (by decide) (by decide)

/-- message/messages.gen.go:2621-2641 `StopReplicaResponse.Decode`, with the memory it asks for -/
def StopReplicaResponse.decodeA (version : Int16) : StopReplicaResponse → ADec StopReplicaResponse :=
    ADec.field ADec.int16 (fun t x => { t with ErrorCode := x }) ;>>
    ADec.fieldStructs (StopReplicaPartitionError5.decodeA version {}) (·.PartitionErrors) (fun t x => { t with PartitionErrors := x })
theorem StopReplicaResponse.erases (version : Int16) (t : StopReplicaResponse) : Erases (StopReplicaResponse.decodeA version t) (StopReplicaResponse.decode version t) :=
  ((ErasesStep.field (.free _))
    |>.andThen (ErasesStep.structs (StopReplicaPartitionError5.erases version {})) : ErasesStep _ _) t
theorem StopReplicaResponse.within (version : Int16) (t : StopReplicaResponse) : Within (StopReplicaResponse.decodeA version t) 6 1 :=
  (((WithinStep.field .int16)
    |>.andThen (WithinStep.structs ((StopReplicaPartitionError5.within version {}).mono (by decide) (Nat.le_refl _))) : WithinStep _ _ _) t).mono (by decide) (by decide)

end Kafka.Msg
