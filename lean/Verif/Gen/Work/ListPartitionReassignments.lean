import Verif.Message.Work
import Verif.Gen.Model.ListPartitionReassignments
/-!
Generated by tools/gen_messages.py: steps taken by decoding the ListPartitionReassignments messages.
-/
namespace Kafka.Msg

/-- message/messages.gen.go:11449-11460 `ListPartitionReassignmentsTopics46.Decode`, with the steps it takes -/
def ListPartitionReassignmentsTopics46.decodeW (_version : Int16) : ListPartitionReassignmentsTopics46 → ADec ListPartitionReassignmentsTopics46 :=
    ADec.field WDec.string (fun t x => { t with Name := x }) ;>>
    ADec.field WDec.int32Array (fun t x => { t with PartitionIndexes := x })
theorem ListPartitionReassignmentsTopics46.erasesW (version : Int16) (t : ListPartitionReassignmentsTopics46) : Erases (ListPartitionReassignmentsTopics46.decodeW version t) (ListPartitionReassignmentsTopics46.decode version t) :=
  ((ErasesStep.field .stringW)
    |>.andThen (ErasesStep.field (.arrayOfW (.read _))) : ErasesStep _ _) t
theorem ListPartitionReassignmentsTopics46.spends (version : Int16) (t : ListPartitionReassignmentsTopics46) : Spends (ListPartitionReassignmentsTopics46.decodeW version t) 10 1 :=
  (((SpendsStep.field .string)
    |>.andThen (SpendsStep.field .int32Array) : SpendsStep _ _) t).mono (by decide) (by decide)
theorem ListPartitionReassignmentsTopics46.spends0 (version : Int16) (t : ListPartitionReassignmentsTopics46) : Spends (ListPartitionReassignmentsTopics46.decodeW version t) 0 1 :=
  (ListPartitionReassignmentsTopics46.spends version t).mono (Nat.zero_le _) (Nat.le_refl _)

/-- message/messages.gen.go:11407-11427 `ListPartitionReassignmentsRequest.Decode`, with the steps it takes -/
def ListPartitionReassignmentsRequest.decodeW (version : Int16) : ListPartitionReassignmentsRequest → ADec ListPartitionReassignmentsRequest :=
    ADec.field WDec.int32 (fun t x => { t with TimeoutMs := x }) ;>>
    WDec.fieldStructs (ListPartitionReassignmentsTopics46.decodeW version {}) (·.Topics) (fun t x => { t with Topics := x })
theorem ListPartitionReassignmentsRequest.erasesW (version : Int16) (t : ListPartitionReassignmentsRequest) : Erases (ListPartitionReassignmentsRequest.decodeW version t) (ListPartitionReassignmentsRequest.decode version t) :=
  ((ErasesStep.field (.read _))
    |>.andThen (ErasesStep.structsW (ListPartitionReassignmentsTopics46.erasesW version {})) : ErasesStep _ _) t
theorem ListPartitionReassignmentsRequest.spends (version : Int16) (t : ListPartitionReassignmentsRequest) : Spends (ListPartitionReassignmentsRequest.decodeW version t) 14 1 :=
  (((SpendsStep.field .int32)
    |>.andThen (SpendsStep.structs ((ListPartitionReassignmentsTopics46.spends version {}).mono (by decide) (Nat.le_refl _))) : SpendsStep _ _) t).mono (by decide) (by decide)
theorem ListPartitionReassignmentsRequest.spends0 (version : Int16) (t : ListPartitionReassignmentsRequest) : Spends (ListPartitionReassignmentsRequest.decodeW version t) 0 1 :=
  (ListPartitionReassignmentsRequest.spends version t).mono (Nat.zero_le _) (Nat.le_refl _)

/-- message/messages.gen.go:11603-11622 `OngoingPartitionReassignment46.Decode`, with the steps it takes -/
def OngoingPartitionReassignment46.decodeW (_version : Int16) : OngoingPartitionReassignment46 → ADec OngoingPartitionReassignment46 :=
    ADec.field WDec.int32 (fun t x => { t with PartitionIndex := x }) ;>>
    ADec.field WDec.int32Array (fun t x => { t with Replicas := x }) ;>>
    ADec.field WDec.int32Array (fun t x => { t with AddingReplicas := x }) ;>>
    ADec.field WDec.int32Array (fun t x => { t with RemovingReplicas := x })
theorem OngoingPartitionReassignment46.erasesW (version : Int16) (t : OngoingPartitionReassignment46) : Erases (OngoingPartitionReassignment46.decodeW version t) (OngoingPartitionReassignment46.decode version t) :=
  ((ErasesStep.field (.read _))
    |>.andThen (ErasesStep.field (.arrayOfW (.read _)))
    |>.andThen (ErasesStep.field (.arrayOfW (.read _)))
    |>.andThen (ErasesStep.field (.arrayOfW (.read _))) : ErasesStep _ _) t
theorem OngoingPartitionReassignment46.spends (version : Int16) (t : OngoingPartitionReassignment46) : Spends (OngoingPartitionReassignment46.decodeW version t) 28 1 :=
  (((SpendsStep.field .int32)
    |>.andThen (SpendsStep.field .int32Array)
    |>.andThen (SpendsStep.field .int32Array)
    |>.andThen (SpendsStep.field .int32Array) : SpendsStep _ _) t).mono (by decide) (by decide)
theorem OngoingPartitionReassignment46.spends0 (version : Int16) (t : OngoingPartitionReassignment46) : Spends (OngoingPartitionReassignment46.decodeW version t) 0 1 :=
  (OngoingPartitionReassignment46.spends version t).mono (Nat.zero_le _) (Nat.le_refl _)

/-- message/messages.gen.go:11555-11575 `OngoingTopicReassignment46.Decode`, with the steps it takes -/
def OngoingTopicReassignment46.decodeW (version : Int16) : OngoingTopicReassignment46 → ADec OngoingTopicReassignment46 :=
    ADec.field WDec.string (fun t x => { t with Name := x }) ;>>
    WDec.fieldStructs (OngoingPartitionReassignment46.decodeW version {}) (·.Partitions) (fun t x => { t with Partitions := x })
theorem OngoingTopicReassignment46.erasesW (version : Int16) (t : OngoingTopicReassignment46) : Erases (OngoingTopicReassignment46.decodeW version t) (OngoingTopicReassignment46.decode version t) :=
  ((ErasesStep.field .stringW)
    |>.andThen (ErasesStep.structsW (OngoingPartitionReassignment46.erasesW version {})) : ErasesStep _ _) t
theorem OngoingTopicReassignment46.spends (version : Int16) (t : OngoingTopicReassignment46) : Spends (OngoingTopicReassignment46.decodeW version t) 10 1 :=
  (((SpendsStep.field .string)
    |>.andThen (SpendsStep.structs ((OngoingPartitionReassignment46.spends version {}).mono (by decide) (Nat.le_refl _))) : SpendsStep _ _) t).mono (by decide) (by decide)
theorem OngoingTopicReassignment46.spends0 (version : Int16) (t : OngoingTopicReassignment46) : Spends (OngoingTopicReassignment46.decodeW version t) 0 1 :=
  (OngoingTopicReassignment46.spends version t).mono (Nat.zero_le _) (Nat.le_refl _)

/-- message/messages.gen.go:11497-11525 `ListPartitionReassignmentsResponse.Decode`, with the steps it takes -/
def ListPartitionReassignmentsResponse.decodeW (version : Int16) : ListPartitionReassignmentsResponse → ADec ListPartitionReassignmentsResponse :=
    ADec.field WDec.int32 (fun t x => { t with ThrottleTimeMs := x }) ;>>
    ADec.field WDec.int16 (fun t x => { t with ErrorCode := x }) ;>>
    ADec.field WDec.string (fun t x => { t with ErrorMessage := x }) ;>>
    WDec.fieldStructs (OngoingTopicReassignment46.decodeW version {}) (·.Topics) (fun t x => { t with Topics := x })
theorem ListPartitionReassignmentsResponse.erasesW (version : Int16) (t : ListPartitionReassignmentsResponse) : Erases (ListPartitionReassignmentsResponse.decodeW version t) (ListPartitionReassignmentsResponse.decode version t) :=
  ((ErasesStep.field (.read _))
    |>.andThen (ErasesStep.field (.read _))
    |>.andThen (ErasesStep.field .stringW)
    |>.andThen (ErasesStep.structsW (OngoingTopicReassignment46.erasesW version {})) : ErasesStep _ _) t
theorem ListPartitionReassignmentsResponse.spends (version : Int16) (t : ListPartitionReassignmentsResponse) : Spends (ListPartitionReassignmentsResponse.decodeW version t) 20 1 :=
  (((SpendsStep.field .int32)
    |>.andThen (SpendsStep.field .int16)
    |>.andThen (SpendsStep.field .string)
    |>.andThen (SpendsStep.structs ((OngoingTopicReassignment46.spends version {}).mono (by decide) (Nat.le_refl _))) : SpendsStep _ _) t).mono (by decide) (by decide)
theorem ListPartitionReassignmentsResponse.spends0 (version : Int16) (t : ListPartitionReassignmentsResponse) : Spends (ListPartitionReassignmentsResponse.decodeW version t) 0 1 :=
  (ListPartitionReassignmentsResponse.spends version t).mono (Nat.zero_le _) (Nat.le_refl _)

/-- The structures of the ListPartitionReassignments messages. -/
def workListPartitionReassignments : List (Σ M : MsgType, Int16 → M.T → ADec M.T) :=
  [⟨ListPartitionReassignmentsRequest.type, ListPartitionReassignmentsRequest.decodeW⟩,
   ⟨ListPartitionReassignmentsTopics46.type, ListPartitionReassignmentsTopics46.decodeW⟩,
   ⟨ListPartitionReassignmentsResponse.type, ListPartitionReassignmentsResponse.decodeW⟩,
   ⟨OngoingTopicReassignment46.type, OngoingTopicReassignment46.decodeW⟩,
   ⟨OngoingPartitionReassignment46.type, OngoingPartitionReassignment46.decodeW⟩]
theorem workListPartitionReassignments_erases : ∀ p ∈ workListPartitionReassignments, ∀ v t, Erases (p.2 v t) (p.1.decode v t) := by
  unfold workListPartitionReassignments
  simp only [List.forall_mem_cons]
  exact ⟨ListPartitionReassignmentsRequest.erasesW, ListPartitionReassignmentsTopics46.erasesW, ListPartitionReassignmentsResponse.erasesW, OngoingTopicReassignment46.erasesW, OngoingPartitionReassignment46.erasesW, fun _ h => absurd h (by simp)⟩
theorem workListPartitionReassignments_spends : ∀ p ∈ workListPartitionReassignments, ∀ v t, Spends (p.2 v t) 0 1 := by
  unfold workListPartitionReassignments
  simp only [List.forall_mem_cons]
  exact ⟨ListPartitionReassignmentsRequest.spends0, ListPartitionReassignmentsTopics46.spends0, ListPartitionReassignmentsResponse.spends0, OngoingTopicReassignment46.spends0, OngoingPartitionReassignment46.spends0, fun _ h => absurd h (by simp)⟩

end Kafka.Msg
