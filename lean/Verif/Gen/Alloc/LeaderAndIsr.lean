import Verif.Message.AllocLemmas
import Verif.Gen.Model.LeaderAndIsr
/-!
Generated by tools/gen_messages.py: memory asked for by decoding the LeaderAndIsr messages.
-/
namespace Kafka.Msg

/-- message/messages.gen.go:2240-2295 `LeaderAndIsrPartitionState4.Decode`, with the memory it asks for -/
def LeaderAndIsrPartitionState4.decodeA (version : Int16) : LeaderAndIsrPartitionState4 → ADec LeaderAndIsrPartitionState4 :=
    ADec.onlyIf (version ≥ 0 ∧ version ≤ 1) (ADec.field ADec.string (fun t x => { t with TopicName := x })) ;>>
    ADec.field ADec.int32 (fun t x => { t with PartitionIndex := x }) ;>>
    ADec.field ADec.int32 (fun t x => { t with ControllerEpoch := x }) ;>>
    ADec.field ADec.int32 (fun t x => { t with Leader := x }) ;>>
    ADec.field ADec.int32 (fun t x => { t with LeaderEpoch := x }) ;>>
    ADec.field ADec.int32Array (fun t x => { t with Isr := x }) ;>>
    ADec.field ADec.int32 (fun t x => { t with ZkVersion := x }) ;>>
    ADec.field ADec.int32Array (fun t x => { t with Replicas := x }) ;>>
    ADec.onlyIf (version ≥ 3) (ADec.field ADec.int32Array (fun t x => { t with AddingReplicas := x })) ;>>
    ADec.onlyIf (version ≥ 3) (ADec.field ADec.int32Array (fun t x => { t with RemovingReplicas := x })) ;>>
    ADec.onlyIf (version ≥ 1) (ADec.field ADec.bool (fun t x => { t with IsNew := x }))
theorem LeaderAndIsrPartitionState4.erases (version : Int16) (t : LeaderAndIsrPartitionState4) : Erases (LeaderAndIsrPartitionState4.decodeA version t) (LeaderAndIsrPartitionState4.decode version t) :=
  ((ErasesStep.onlyIf (ErasesStep.field .string))
    |>.andThen (ErasesStep.field (.free _))
    |>.andThen (ErasesStep.field (.free _))
    |>.andThen (ErasesStep.field (.free _))
    |>.andThen (ErasesStep.field (.free _))
    |>.andThen (ErasesStep.field (.arrayOf (.free _)))
    |>.andThen (ErasesStep.field (.free _))
    |>.andThen (ErasesStep.field (.arrayOf (.free _)))
    |>.andThen (ErasesStep.onlyIf (ErasesStep.field (.arrayOf (.free _))))
    |>.andThen (ErasesStep.onlyIf (ErasesStep.field (.arrayOf (.free _))))
    |>.andThen (ErasesStep.onlyIf (ErasesStep.field (.free _))) : ErasesStep _ _) t
theorem LeaderAndIsrPartitionState4.within (version : Int16) (t : LeaderAndIsrPartitionState4) : Within (LeaderAndIsrPartitionState4.decodeA version t) 28 1 :=
  (((WithinStep.onlyIf (fun _ => WithinStep.field .string))
    |>.andThen (WithinStep.field .int32)
    |>.andThen (WithinStep.field .int32)
    |>.andThen (WithinStep.field .int32)
    |>.andThen (WithinStep.field .int32)
    |>.andThen (WithinStep.field .int32Array)
    |>.andThen (WithinStep.field .int32)
    |>.andThen (WithinStep.field .int32Array)
    |>.andThen (WithinStep.onlyIf (fun _ => WithinStep.field .int32Array))
    |>.andThen (WithinStep.onlyIf (fun _ => WithinStep.field .int32Array))
    |>.andThen (WithinStep.onlyIf (fun _ => WithinStep.field .bool)) : WithinStep _ _ _) t).mono (by decide) (by decide)

/-- message/messages.gen.go:2111-2135 `LeaderAndIsrTopicState4.Decode`, with the memory it asks for -/
def LeaderAndIsrTopicState4.decodeA (version : Int16) : LeaderAndIsrTopicState4 → ADec LeaderAndIsrTopicState4 :=
    ADec.onlyIf (version ≥ 2) (ADec.field ADec.string (fun t x => { t with TopicName := x })) ;>>
    ADec.onlyIf (version ≥ 2) (ADec.fieldStructs (LeaderAndIsrPartitionState4.decodeA version {}) (·.PartitionStates) (fun t x => { t with PartitionStates := x }))
theorem LeaderAndIsrTopicState4.erases (version : Int16) (t : LeaderAndIsrTopicState4) : Erases (LeaderAndIsrTopicState4.decodeA version t) (LeaderAndIsrTopicState4.decode version t) :=
  ((ErasesStep.onlyIf (ErasesStep.field .string))
    |>.andThen (ErasesStep.onlyIf (ErasesStep.structs (LeaderAndIsrPartitionState4.erases version {}))) : ErasesStep _ _) t
theorem LeaderAndIsrTopicState4.within (version : Int16) (t : LeaderAndIsrTopicState4) (h : version ≥ 2) : Within (LeaderAndIsrTopicState4.decodeA version t) 2 2 :=
  (((WithinStep.present h (WithinStep.field .string))
    |>.andThen (WithinStep.onlyIf (fun _ => WithinStep.structs ((LeaderAndIsrPartitionState4.within version {}).mono (by decide) (Nat.le_refl _)))) : WithinStep _ _ _) t).mono (by decide) (by decide)

/-- message/messages.gen.go:2160-2175 `LeaderAndIsrLiveLeader4.Decode`, with the memory it asks for -/
def LeaderAndIsrLiveLeader4.decodeA (_version : Int16) : LeaderAndIsrLiveLeader4 → ADec LeaderAndIsrLiveLeader4 :=
    ADec.field ADec.int32 (fun t x => { t with BrokerId := x }) ;>>
    ADec.field ADec.string (fun t x => { t with HostName := x }) ;>>
    ADec.field ADec.int32 (fun t x => { t with Port := x })
theorem LeaderAndIsrLiveLeader4.erases (version : Int16) (t : LeaderAndIsrLiveLeader4) : Erases (LeaderAndIsrLiveLeader4.decodeA version t) (LeaderAndIsrLiveLeader4.decode version t) :=
  ((ErasesStep.field (.free _))
    |>.andThen (ErasesStep.field .string)
    |>.andThen (ErasesStep.field (.free _)) : ErasesStep _ _) t
theorem LeaderAndIsrLiveLeader4.within (version : Int16) (t : LeaderAndIsrLiveLeader4) : Within (LeaderAndIsrLiveLeader4.decodeA version t) 10 0 :=
  (((WithinStep.field .int32)
    |>.andThen (WithinStep.field .string)
    |>.andThen (WithinStep.field .int32) : WithinStep _ _ _) t).mono (by decide) (by decide)

/-- message/messages.gen.go:2013-2073 `LeaderAndIsrRequest.Decode`, with the memory it asks for -/
def LeaderAndIsrRequest.decodeA (version : Int16) : LeaderAndIsrRequest → ADec LeaderAndIsrRequest :=
    ADec.field ADec.int32 (fun t x => { t with ControllerId := x }) ;>>
    ADec.field ADec.int32 (fun t x => { t with ControllerEpoch := x }) ;>>
    ADec.onlyIf (version ≥ 2) (ADec.field ADec.int64 (fun t x => { t with BrokerEpoch := x })) ;>>
    ADec.onlyIf (version ≥ 0 ∧ version ≤ 1) (ADec.fieldStructs (LeaderAndIsrPartitionState4.decodeA version {}) (·.UngroupedPartitionStates) (fun t x => { t with UngroupedPartitionStates := x })) ;>>
    ADec.onlyIf (version ≥ 2) (ADec.fieldStructs (LeaderAndIsrTopicState4.decodeA version {}) (·.TopicStates) (fun t x => { t with TopicStates := x })) ;>>
    ADec.fieldStructs (LeaderAndIsrLiveLeader4.decodeA version {}) (·.LiveLeaders) (fun t x => { t with LiveLeaders := x })
theorem LeaderAndIsrRequest.erases (version : Int16) (t : LeaderAndIsrRequest) : Erases (LeaderAndIsrRequest.decodeA version t) (LeaderAndIsrRequest.decode version t) :=
  ((ErasesStep.field (.free _))
    |>.andThen (ErasesStep.field (.free _))
    |>.andThen (ErasesStep.onlyIf (ErasesStep.field (.free _)))
    |>.andThen (ErasesStep.onlyIf (ErasesStep.structs (LeaderAndIsrPartitionState4.erases version {})))
    |>.andThen (ErasesStep.onlyIf (ErasesStep.structs (LeaderAndIsrTopicState4.erases version {})))
    |>.andThen (ErasesStep.structs (LeaderAndIsrLiveLeader4.erases version {})) : ErasesStep _ _) t
theorem LeaderAndIsrRequest.within (version : Int16) (t : LeaderAndIsrRequest) : Within (LeaderAndIsrRequest.decodeA version t) 12 3 :=
  (((WithinStep.field .int32)
    |>.andThen (WithinStep.field .int32)
    |>.andThen (WithinStep.onlyIf (fun _ => WithinStep.field .int64))
    |>.andThen (WithinStep.onlyIf (fun _ => WithinStep.structs ((LeaderAndIsrPartitionState4.within version {}).mono (by decide) (Nat.le_refl _))))
    |>.andThen (WithinStep.onlyIf (fun h => WithinStep.structs ((LeaderAndIsrTopicState4.within version {} h).mono (by decide) (Nat.le_refl _))))
    |>.andThen (WithinStep.structs ((LeaderAndIsrLiveLeader4.within version {}).mono (by decide) (Nat.le_refl _))) : WithinStep _ _ _) t).mono (by decide) (by decide)

/-- message/messages.gen.go:2371-2386 `LeaderAndIsrPartitionError4.Decode`, with the memory it asks for -/
def LeaderAndIsrPartitionError4.decodeA (_version : Int16) : LeaderAndIsrPartitionError4 → ADec LeaderAndIsrPartitionError4 :=
    ADec.field ADec.string (fun t x => { t with TopicName := x }) ;>>
    ADec.field ADec.int32 (fun t x => { t with PartitionIndex := x }) ;>>
    ADec.field ADec.int16 (fun t x => { t with ErrorCode := x })
theorem LeaderAndIsrPartitionError4.erases (version : Int16) (t : LeaderAndIsrPartitionError4) : Erases (LeaderAndIsrPartitionError4.decodeA version t) (LeaderAndIsrPartitionError4.decode version t) :=
  ((ErasesStep.field .string)
    |>.andThen (ErasesStep.field (.free _))
    |>.andThen (ErasesStep.field (.free _)) : ErasesStep _ _) t
theorem LeaderAndIsrPartitionError4.within (version : Int16) (t : LeaderAndIsrPartitionError4) : Within (LeaderAndIsrPartitionError4.decodeA version t) 8 0 :=
  (((WithinStep.field .string)
    |>.andThen (WithinStep.field .int32)
    |>.andThen (WithinStep.field .int16) : WithinStep _ _ _) t).mono (by decide) (by decide)

/-- message/messages.gen.go:2326-2346 `LeaderAndIsrResponse.Decode`, with the memory it asks for -/
def LeaderAndIsrResponse.decodeA (version : Int16) : LeaderAndIsrResponse → ADec LeaderAndIsrResponse :=
    ADec.field ADec.int16 (fun t x => { t with ErrorCode := x }) ;>>
    ADec.fieldStructs (LeaderAndIsrPartitionError4.decodeA version {}) (·.PartitionErrors) (fun t x => { t with PartitionErrors := x })
theorem LeaderAndIsrResponse.erases (version : Int16) (t : LeaderAndIsrResponse) : Erases (LeaderAndIsrResponse.decodeA version t) (LeaderAndIsrResponse.decode version t) :=
  ((ErasesStep.field (.free _))
    |>.andThen (ErasesStep.structs (LeaderAndIsrPartitionError4.erases version {})) : ErasesStep _ _) t
theorem LeaderAndIsrResponse.within (version : Int16) (t : LeaderAndIsrResponse) : Within (LeaderAndIsrResponse.decodeA version t) 6 1 :=
  (((WithinStep.field .int16)
    |>.andThen (WithinStep.structs ((LeaderAndIsrPartitionError4.within version {}).mono (by decide) (Nat.le_refl _))) : WithinStep _ _ _) t).mono (by decide) (by decide)

end Kafka.Msg
