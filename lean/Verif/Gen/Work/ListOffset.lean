import Verif.Message.Work
import Verif.Gen.Model.ListOffset
/-!
Generated by tools/gen_messages.py: steps taken by decoding the ListOffset messages.
-/
namespace Kafka.Msg

/-- message/messages.gen.go:1282-1305 `ListOffsetPartition2.Decode`, with the steps it takes -/
def ListOffsetPartition2.decodeW (version : Int16) : ListOffsetPartition2 → ADec ListOffsetPartition2 :=
    ADec.field WDec.int32 (fun t x => { t with PartitionIndex := x }) ;>>
    ADec.onlyIf (version ≥ 4) (ADec.field WDec.int32 (fun t x => { t with CurrentLeaderEpoch := x })) ;>>
    ADec.field WDec.int64 (fun t x => { t with Timestamp := x }) ;>>
    ADec.onlyIf (version ≥ 0 ∧ version ≤ 0) (ADec.field WDec.int32 (fun t x => { t with MaxNumOffsets := x }))
theorem ListOffsetPartition2.erasesW (version : Int16) (t : ListOffsetPartition2) : Erases (ListOffsetPartition2.decodeW version t) (ListOffsetPartition2.decode version t) :=
  ((ErasesStep.field (.read _))
    |>.andThen (ErasesStep.onlyIf (ErasesStep.field (.read _)))
    |>.andThen (ErasesStep.field (.read _))
    |>.andThen (ErasesStep.onlyIf (ErasesStep.field (.read _))) : ErasesStep _ _) t
theorem ListOffsetPartition2.spends (version : Int16) (t : ListOffsetPartition2) : Spends (ListOffsetPartition2.decodeW version t) 22 1 :=
  (((SpendsStep.field .int32)
    |>.andThen (SpendsStep.onlyIf (fun _ => SpendsStep.field .int32))
    |>.andThen (SpendsStep.field .int64)
    |>.andThen (SpendsStep.onlyIf (fun _ => SpendsStep.field .int32)) : SpendsStep _ _) t).mono (by decide) (by decide)
theorem ListOffsetPartition2.spends0 (version : Int16) (t : ListOffsetPartition2) : Spends (ListOffsetPartition2.decodeW version t) 0 1 :=
  (ListOffsetPartition2.spends version t).mono (Nat.zero_le _) (Nat.le_refl _)

/-- message/messages.gen.go:1226-1246 `ListOffsetTopic2.Decode`, with the steps it takes -/
def ListOffsetTopic2.decodeW (version : Int16) : ListOffsetTopic2 → ADec ListOffsetTopic2 :=
    ADec.field WDec.string (fun t x => { t with Name := x }) ;>>
    WDec.fieldStructs (ListOffsetPartition2.decodeW version {}) (·.Partitions) (fun t x => { t with Partitions := x })
theorem ListOffsetTopic2.erasesW (version : Int16) (t : ListOffsetTopic2) : Erases (ListOffsetTopic2.decodeW version t) (ListOffsetTopic2.decode version t) :=
  ((ErasesStep.field .stringW)
    |>.andThen (ErasesStep.structsW (ListOffsetPartition2.erasesW version {})) : ErasesStep _ _) t
theorem ListOffsetTopic2.spends (version : Int16) (t : ListOffsetTopic2) : Spends (ListOffsetTopic2.decodeW version t) 10 1 :=
  (((SpendsStep.field .string)
    |>.andThen (SpendsStep.structs ((ListOffsetPartition2.spends version {}).mono (by decide) (Nat.le_refl _))) : SpendsStep _ _) t).mono (by decide) (by decide)
theorem ListOffsetTopic2.spends0 (version : Int16) (t : ListOffsetTopic2) : Spends (ListOffsetTopic2.decodeW version t) 0 1 :=
  (ListOffsetTopic2.spends version t).mono (Nat.zero_le _) (Nat.le_refl _)

/-- message/messages.gen.go:1170-1196 `ListOffsetRequest.Decode`, with the steps it takes -/
def ListOffsetRequest.decodeW (version : Int16) : ListOffsetRequest → ADec ListOffsetRequest :=
    ADec.field WDec.int32 (fun t x => { t with ReplicaId := x }) ;>>
    ADec.onlyIf (version ≥ 2) (ADec.field WDec.int8 (fun t x => { t with IsolationLevel := x })) ;>>
    WDec.fieldStructs (ListOffsetTopic2.decodeW version {}) (·.Topics) (fun t x => { t with Topics := x })
theorem ListOffsetRequest.erasesW (version : Int16) (t : ListOffsetRequest) : Erases (ListOffsetRequest.decodeW version t) (ListOffsetRequest.decode version t) :=
  ((ErasesStep.field (.read _))
    |>.andThen (ErasesStep.onlyIf (ErasesStep.field (.read _)))
    |>.andThen (ErasesStep.structsW (ListOffsetTopic2.erasesW version {})) : ErasesStep _ _) t
theorem ListOffsetRequest.spends (version : Int16) (t : ListOffsetRequest) : Spends (ListOffsetRequest.decodeW version t) 14 1 :=
  (((SpendsStep.field .int32)
    |>.andThen (SpendsStep.onlyIf (fun _ => SpendsStep.field .int8))
    |>.andThen (SpendsStep.structs ((ListOffsetTopic2.spends version {}).mono (by decide) (Nat.le_refl _))) : SpendsStep _ _) t).mono (by decide) (by decide)
theorem ListOffsetRequest.spends0 (version : Int16) (t : ListOffsetRequest) : Spends (ListOffsetRequest.decodeW version t) 0 1 :=
  (ListOffsetRequest.spends version t).mono (Nat.zero_le _) (Nat.le_refl _)

/-- message/messages.gen.go:1462-1497 `ListOffsetPartitionResponse2.Decode`, with the steps it takes -/
def ListOffsetPartitionResponse2.decodeW (version : Int16) : ListOffsetPartitionResponse2 → ADec ListOffsetPartitionResponse2 :=
    ADec.field WDec.int32 (fun t x => { t with PartitionIndex := x }) ;>>
    ADec.field WDec.int16 (fun t x => { t with ErrorCode := x }) ;>>
    ADec.onlyIf (version ≥ 0 ∧ version ≤ 0) (ADec.field WDec.int64Array (fun t x => { t with OldStyleOffsets := x })) ;>>
    ADec.onlyIf (version ≥ 1) (ADec.field WDec.int64 (fun t x => { t with Timestamp := x })) ;>>
    ADec.onlyIf (version ≥ 1) (ADec.field WDec.int64 (fun t x => { t with Offset := x })) ;>>
    ADec.onlyIf (version ≥ 4) (ADec.field WDec.int32 (fun t x => { t with LeaderEpoch := x }))
theorem ListOffsetPartitionResponse2.erasesW (version : Int16) (t : ListOffsetPartitionResponse2) : Erases (ListOffsetPartitionResponse2.decodeW version t) (ListOffsetPartitionResponse2.decode version t) :=
  ((ErasesStep.field (.read _))
    |>.andThen (ErasesStep.field (.read _))
    |>.andThen (ErasesStep.onlyIf (ErasesStep.field (.arrayOfW (.read _))))
    |>.andThen (ErasesStep.onlyIf (ErasesStep.field (.read _)))
    |>.andThen (ErasesStep.onlyIf (ErasesStep.field (.read _)))
    |>.andThen (ErasesStep.onlyIf (ErasesStep.field (.read _))) : ErasesStep _ _) t
theorem ListOffsetPartitionResponse2.spends (version : Int16) (t : ListOffsetPartitionResponse2) : Spends (ListOffsetPartitionResponse2.decodeW version t) 10 1 :=
  (((SpendsStep.field .int32)
    |>.andThen (SpendsStep.field .int16)
    |>.andThen (SpendsStep.onlyIf (fun _ => SpendsStep.field .int64Array))
    |>.andThen (SpendsStep.onlyIf (fun _ => SpendsStep.field .int64))
    |>.andThen (SpendsStep.onlyIf (fun _ => SpendsStep.field .int64))
    |>.andThen (SpendsStep.onlyIf (fun _ => SpendsStep.field .int32)) : SpendsStep _ _) t).mono (by decide) (by decide)
theorem ListOffsetPartitionResponse2.spends0 (version : Int16) (t : ListOffsetPartitionResponse2) : Spends (ListOffsetPartitionResponse2.decodeW version t) 0 1 :=
  (ListOffsetPartitionResponse2.spends version t).mono (Nat.zero_le _) (Nat.le_refl _)

/-- message/messages.gen.go:1392-1412 `ListOffsetTopicResponse2.Decode`, with the steps it takes -/
def ListOffsetTopicResponse2.decodeW (version : Int16) : ListOffsetTopicResponse2 → ADec ListOffsetTopicResponse2 :=
    ADec.field WDec.string (fun t x => { t with Name := x }) ;>>
    WDec.fieldStructs (ListOffsetPartitionResponse2.decodeW version {}) (·.Partitions) (fun t x => { t with Partitions := x })
theorem ListOffsetTopicResponse2.erasesW (version : Int16) (t : ListOffsetTopicResponse2) : Erases (ListOffsetTopicResponse2.decodeW version t) (ListOffsetTopicResponse2.decode version t) :=
  ((ErasesStep.field .stringW)
    |>.andThen (ErasesStep.structsW (ListOffsetPartitionResponse2.erasesW version {})) : ErasesStep _ _) t
theorem ListOffsetTopicResponse2.spends (version : Int16) (t : ListOffsetTopicResponse2) : Spends (ListOffsetTopicResponse2.decodeW version t) 10 1 :=
  (((SpendsStep.field .string)
    |>.andThen (SpendsStep.structs ((ListOffsetPartitionResponse2.spends version {}).mono (by decide) (Nat.le_refl _))) : SpendsStep _ _) t).mono (by decide) (by decide)
theorem ListOffsetTopicResponse2.spends0 (version : Int16) (t : ListOffsetTopicResponse2) : Spends (ListOffsetTopicResponse2.decodeW version t) 0 1 :=
  (ListOffsetTopicResponse2.spends version t).mono (Nat.zero_le _) (Nat.le_refl _)

/-- message/messages.gen.go:1340-1362 `ListOffsetResponse.Decode`, with the steps it takes -/
def ListOffsetResponse.decodeW (version : Int16) : ListOffsetResponse → ADec ListOffsetResponse :=
    ADec.onlyIf (version ≥ 2) (ADec.field WDec.int32 (fun t x => { t with ThrottleTimeMs := x })) ;>>
    WDec.fieldStructs (ListOffsetTopicResponse2.decodeW version {}) (·.Topics) (fun t x => { t with Topics := x })
theorem ListOffsetResponse.erasesW (version : Int16) (t : ListOffsetResponse) : Erases (ListOffsetResponse.decodeW version t) (ListOffsetResponse.decode version t) :=
  ((ErasesStep.onlyIf (ErasesStep.field (.read _)))
    |>.andThen (ErasesStep.structsW (ListOffsetTopicResponse2.erasesW version {})) : ErasesStep _ _) t
theorem ListOffsetResponse.spends (version : Int16) (t : ListOffsetResponse) : Spends (ListOffsetResponse.decodeW version t) 7 1 :=
  (((SpendsStep.onlyIf (fun _ => SpendsStep.field .int32))
    |>.andThen (SpendsStep.structs ((ListOffsetTopicResponse2.spends version {}).mono (by decide) (Nat.le_refl _))) : SpendsStep _ _) t).mono (by decide) (by decide)
theorem ListOffsetResponse.spends0 (version : Int16) (t : ListOffsetResponse) : Spends (ListOffsetResponse.decodeW version t) 0 1 :=
  (ListOffsetResponse.spends version t).mono (Nat.zero_le _) (Nat.le_refl _)

/-- The structures of the ListOffset messages. -/
def workListOffset : List (Σ M : MsgType, Int16 → M.T → ADec M.T) :=
  [⟨ListOffsetRequest.type, ListOffsetRequest.decodeW⟩,
   ⟨ListOffsetTopic2.type, ListOffsetTopic2.decodeW⟩,
   ⟨ListOffsetPartition2.type, ListOffsetPartition2.decodeW⟩,
   ⟨ListOffsetResponse.type, ListOffsetResponse.decodeW⟩,
   ⟨ListOffsetTopicResponse2.type, ListOffsetTopicResponse2.decodeW⟩,
   ⟨ListOffsetPartitionResponse2.type, ListOffsetPartitionResponse2.decodeW⟩]
theorem workListOffset_erases : ∀ p ∈ workListOffset, ∀ v t, Erases (p.2 v t) (p.1.decode v t) := by
  unfold workListOffset
  simp only [List.forall_mem_cons]
  exact ⟨ListOffsetRequest.erasesW, ListOffsetTopic2.erasesW, ListOffsetPartition2.erasesW, ListOffsetResponse.erasesW, ListOffsetTopicResponse2.erasesW, ListOffsetPartitionResponse2.erasesW, fun _ h => absurd h (by simp)⟩
theorem workListOffset_spends : ∀ p ∈ workListOffset, ∀ v t, Spends (p.2 v t) 0 1 := by
  unfold workListOffset
  simp only [List.forall_mem_cons]
  exact ⟨ListOffsetRequest.spends0, ListOffsetTopic2.spends0, ListOffsetPartition2.spends0, ListOffsetResponse.spends0, ListOffsetTopicResponse2.spends0, ListOffsetPartitionResponse2.spends0, fun _ h => absurd h (by simp)⟩

end Kafka.Msg
