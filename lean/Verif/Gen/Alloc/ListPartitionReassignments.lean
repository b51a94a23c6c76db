import Verif.Message.AllocLemmas
import Verif.Gen.Model.ListPartitionReassignments
/-!
Generated by tools/gen_messages.py: memory asked for by decoding the ListPartitionReassignments messages.
-/
namespace Kafka.Msg

/-- message/messages.gen.go:11449-11460 `ListPartitionReassignmentsTopics46.Decode`, with the memory it asks for -/
def ListPartitionReassignmentsTopics46.decodeA (_version : Int16) : ListPartitionReassignmentsTopics46 → ADec ListPartitionReassignmentsTopics46 :=
    ADec.field ADec.string (fun t x => { t with Name := x }) ;>>
    ADec.field ADec.int32Array (fun t x => { t with PartitionIndexes := x })
theorem ListPartitionReassignmentsTopics46.erases (version : Int16) (t : ListPartitionReassignmentsTopics46) : Erases (ListPartitionReassignmentsTopics46.decodeA version t) (ListPartitionReassignmentsTopics46.decode version t) :=
  ((ErasesStep.field .string)
    |>.andThen (ErasesStep.field (.arrayOf (.free _))) : ErasesStep _ _) t
theorem ListPartitionReassignmentsTopics46.within (version : Int16) (t : ListPartitionReassignmentsTopics46) : Within (ListPartitionReassignmentsTopics46.decodeA version t) 6 1 :=
  (((WithinStep.field .string)
    |>.andThen (WithinStep.field .int32Array) : WithinStep _ _ _) t).mono (by decide) (by decide)

/-- message/messages.gen.go:11407-11427 `ListPartitionReassignmentsRequest.Decode`, with the memory it asks for -/
def ListPartitionReassignmentsRequest.decodeA (version : Int16) : ListPartitionReassignmentsRequest → ADec ListPartitionReassignmentsRequest :=
    ADec.field ADec.int32 (fun t x => { t with TimeoutMs := x }) ;>>
    ADec.fieldStructs (ListPartitionReassignmentsTopics46.decodeA version {}) (·.Topics) (fun t x => { t with Topics := x })
theorem ListPartitionReassignmentsRequest.erases (version : Int16) (t : ListPartitionReassignmentsRequest) : Erases (ListPartitionReassignmentsRequest.decodeA version t) (ListPartitionReassignmentsRequest.decode version t) :=
  ((ErasesStep.field (.free _))
    |>.andThen (ErasesStep.structs (ListPartitionReassignmentsTopics46.erases version {})) : ErasesStep _ _) t
theorem ListPartitionReassignmentsRequest.within (version : Int16) (t : ListPartitionReassignmentsRequest) : Within (ListPartitionReassignmentsRequest.decodeA version t) 8 2 :=
  (((WithinStep.field .int32)
    |>.andThen (WithinStep.structs ((ListPartitionReassignmentsTopics46.within version {}).mono (by decide) (Nat.le_refl _))) : WithinStep _ _ _) t).mono (by decide) (by decide)

/-- message/messages.gen.go:11603-11622 `OngoingPartitionReassignment46.Decode`, with the memory it asks for -/
def OngoingPartitionReassignment46.decodeA (_version : Int16) : OngoingPartitionReassignment46 → ADec OngoingPartitionReassignment46 :=
    ADec.field ADec.int32 (fun t x => { t with PartitionIndex := x }) ;>>
    ADec.field ADec.int32Array (fun t x => { t with Replicas := x }) ;>>
    ADec.field ADec.int32Array (fun t x => { t with AddingReplicas := x }) ;>>
    ADec.field ADec.int32Array (fun t x => { t with RemovingReplicas := x })
theorem OngoingPartitionReassignment46.erases (version : Int16) (t : OngoingPartitionReassignment46) : Erases (OngoingPartitionReassignment46.decodeA version t) (OngoingPartitionReassignment46.decode version t) :=
  ((ErasesStep.field (.free _))
    |>.andThen (ErasesStep.field (.arrayOf (.free _)))
    |>.andThen (ErasesStep.field (.arrayOf (.free _)))
    |>.andThen (ErasesStep.field (.arrayOf (.free _))) : ErasesStep _ _) t
theorem OngoingPartitionReassignment46.within (version : Int16) (t : OngoingPartitionReassignment46) : Within (OngoingPartitionReassignment46.decodeA version t) 16 1 :=
  (((WithinStep.field .int32)
    |>.andThen (WithinStep.field .int32Array)
    |>.andThen (WithinStep.field .int32Array)
    |>.andThen (WithinStep.field .int32Array) : WithinStep _ _ _) t).mono (by decide) (by decide)

/-- message/messages.gen.go:11555-11575 `OngoingTopicReassignment46.Decode`, with the memory it asks for -/
def OngoingTopicReassignment46.decodeA (version : Int16) : OngoingTopicReassignment46 → ADec OngoingTopicReassignment46 :=
    ADec.field ADec.string (fun t x => { t with Name := x }) ;>>
    ADec.fieldStructs (OngoingPartitionReassignment46.decodeA version {}) (·.Partitions) (fun t x => { t with Partitions := x })
theorem OngoingTopicReassignment46.erases (version : Int16) (t : OngoingTopicReassignment46) : Erases (OngoingTopicReassignment46.decodeA version t) (OngoingTopicReassignment46.decode version t) :=
  ((ErasesStep.field .string)
    |>.andThen (ErasesStep.structs (OngoingPartitionReassignment46.erases version {})) : ErasesStep _ _) t
theorem OngoingTopicReassignment46.within (version : Int16) (t : OngoingTopicReassignment46) : Within (OngoingTopicReassignment46.decodeA version t) 6 2 :=
  (((WithinStep.field .string)
    |>.andThen (WithinStep.structs ((OngoingPartitionReassignment46.within version {}).mono (by decide) (Nat.le_refl _))) : WithinStep _ _ _) t).mono (by decide) (by decide)

/-- message/messages.gen.go:11497-11525 `ListPartitionReassignmentsResponse.Decode`, with the memory it asks for -/
def ListPartitionReassignmentsResponse.decodeA (version : Int16) : ListPartitionReassignmentsResponse → ADec ListPartitionReassignmentsResponse :=
    ADec.field ADec.int32 (fun t x => { t with ThrottleTimeMs := x }) ;>>
    ADec.field ADec.int16 (fun t x => { t with ErrorCode := x }) ;>>
    ADec.field ADec.string (fun t x => { t with ErrorMessage := x }) ;>>
    ADec.fieldStructs (OngoingTopicReassignment46.decodeA version {}) (·.Topics) (fun t x => { t with Topics := x })
theorem ListPartitionReassignmentsResponse.erases (version : Int16) (t : ListPartitionReassignmentsResponse) : Erases (ListPartitionReassignmentsResponse.decodeA version t) (ListPartitionReassignmentsResponse.decode version t) :=
  ((ErasesStep.field (.free _))
    |>.andThen (ErasesStep.field (.free _))
    |>.andThen (ErasesStep.field .string)
    |>.andThen (ErasesStep.structs (OngoingTopicReassignment46.erases version {})) : ErasesStep _ _) t
theorem ListPartitionReassignmentsResponse.within (version : Int16) (t : ListPartitionReassignmentsResponse) : Within (ListPartitionReassignmentsResponse.decodeA version t) 12 3 :=
  (((WithinStep.field .int32)
    |>.andThen (WithinStep.field .int16)
    |>.andThen (WithinStep.field .string)
    |>.andThen (WithinStep.structs ((OngoingTopicReassignment46.within version {}).mono (by decide) (Nat.le_refl _))) : WithinStep _ _ _) t).mono (by decide) (by decide)

end Kafka.Msg
