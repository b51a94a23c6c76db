import Verif.Message.Work
import Verif.Gen.Model.StopReplica
/-!
Generated by tools/gen_messages.py: steps taken by decoding the StopReplica messages.
-/
namespace Kafka.Msg

/-- message/messages.gen.go:2530-2545 `StopReplicaPartitionV05.Decode`, with the steps it takes -/
def StopReplicaPartitionV05.decodeW (version : Int16) : StopReplicaPartitionV05 → ADec StopReplicaPartitionV05 :=
    ADec.onlyIf (version ≥ 0 ∧ version ≤ 0) (ADec.field WDec.string (fun t x => { t with TopicName := x })) ;>>
    ADec.onlyIf (version ≥ 0 ∧ version ≤ 0) (ADec.field WDec.int32 (fun t x => { t with PartitionIndex := x }))
theorem StopReplicaPartitionV05.erasesW (version : Int16) (t : StopReplicaPartitionV05) : Erases (StopReplicaPartitionV05.decodeW version t) (StopReplicaPartitionV05.decode version t) :=
  ((ErasesStep.onlyIf (ErasesStep.field .stringW))
    |>.andThen (ErasesStep.onlyIf (ErasesStep.field (.read _))) : ErasesStep _ _) t
theorem StopReplicaPartitionV05.spends (version : Int16) (t : StopReplicaPartitionV05) (h : version ≥ 0 ∧ version ≤ 0) : Spends (StopReplicaPartitionV05.decodeW version t) 3 1 :=
  (((SpendsStep.present h (SpendsStep.field .string))
    |>.andThen (SpendsStep.onlyIf (fun _ => SpendsStep.field .int32)) : SpendsStep _ _) t).mono (by decide) (by decide)
theorem StopReplicaPartitionV05.spends0 (version : Int16) (t : StopReplicaPartitionV05) : Spends (StopReplicaPartitionV05.decodeW version t) 0 1 :=
  (((SpendsStep.onlyIf (fun _ => SpendsStep.field .string))
    |>.andThen (SpendsStep.onlyIf (fun _ => SpendsStep.field .int32)) : SpendsStep _ _) t).mono (by decide) (by decide)

/-- message/messages.gen.go:2575-2590 `StopReplicaTopic5.Decode`, with the steps it takes -/
def StopReplicaTopic5.decodeW (version : Int16) : StopReplicaTopic5 → ADec StopReplicaTopic5 :=
    ADec.onlyIf (version ≥ 1) (ADec.field WDec.string (fun t x => { t with Name := x })) ;>>
    ADec.onlyIf (version ≥ 1) (ADec.field WDec.int32Array (fun t x => { t with PartitionIndexes := x }))
theorem StopReplicaTopic5.erasesW (version : Int16) (t : StopReplicaTopic5) : Erases (StopReplicaTopic5.decodeW version t) (StopReplicaTopic5.decode version t) :=
  ((ErasesStep.onlyIf (ErasesStep.field .stringW))
    |>.andThen (ErasesStep.onlyIf (ErasesStep.field (.arrayOfW (.read _)))) : ErasesStep _ _) t
theorem StopReplicaTopic5.spends (version : Int16) (t : StopReplicaTopic5) (h : version ≥ 1) : Spends (StopReplicaTopic5.decodeW version t) 3 1 :=
  (((SpendsStep.present h (SpendsStep.field .string))
    |>.andThen (SpendsStep.onlyIf (fun _ => SpendsStep.field .int32Array)) : SpendsStep _ _) t).mono (by decide) (by decide)
theorem StopReplicaTopic5.spends0 (version : Int16) (t : StopReplicaTopic5) : Spends (StopReplicaTopic5.decodeW version t) 0 1 :=
  (((SpendsStep.onlyIf (fun _ => SpendsStep.field .string))
    |>.andThen (SpendsStep.onlyIf (fun _ => SpendsStep.field .int32Array)) : SpendsStep _ _) t).mono (by decide) (by decide)

/-- message/messages.gen.go:2449-2500 `StopReplicaRequest.Decode`, with the steps it takes -/
def StopReplicaRequest.decodeW (version : Int16) : StopReplicaRequest → ADec StopReplicaRequest :=
    ADec.field WDec.int32 (fun t x => { t with ControllerId := x }) ;>>
    ADec.field WDec.int32 (fun t x => { t with ControllerEpoch := x }) ;>>
    ADec.onlyIf (version ≥ 1) (ADec.field WDec.int64 (fun t x => { t with BrokerEpoch := x })) ;>>
    ADec.field WDec.bool (fun t x => { t with DeletePartitions := x }) ;>>
    ADec.onlyIf (version ≥ 0 ∧ version ≤ 0) (WDec.fieldStructs (StopReplicaPartitionV05.decodeW version {}) (·.UngroupedPartitions) (fun t x => { t with UngroupedPartitions := x })) ;>>
    ADec.onlyIf (version ≥ 1) (WDec.fieldStructs (StopReplicaTopic5.decodeW version {}) (·.Topics) (fun t x => { t with Topics := x }))
theorem StopReplicaRequest.erasesW (version : Int16) (t : StopReplicaRequest) : Erases (StopReplicaRequest.decodeW version t) (StopReplicaRequest.decode version t) :=
  ((ErasesStep.field (.read _))
    |>.andThen (ErasesStep.field (.read _))
    |>.andThen (ErasesStep.onlyIf (ErasesStep.field (.read _)))
    |>.andThen (ErasesStep.field (.read _))
    |>.andThen (ErasesStep.onlyIf (ErasesStep.structsW (StopReplicaPartitionV05.erasesW version {})))
    |>.andThen (ErasesStep.onlyIf (ErasesStep.structsW (StopReplicaTopic5.erasesW version {}))) : ErasesStep _ _) t
theorem StopReplicaRequest.spends (version : Int16) (t : StopReplicaRequest) : Spends (StopReplicaRequest.decodeW version t) 15 1 :=
  (((SpendsStep.field .int32)
    |>.andThen (SpendsStep.field .int32)
    |>.andThen (SpendsStep.onlyIf (fun _ => SpendsStep.field .int64))
    |>.andThen (SpendsStep.field .bool)
    |>.andThen (SpendsStep.onlyIf (fun h => SpendsStep.structs ((StopReplicaPartitionV05.spends version {} h).mono (by decide) (Nat.le_refl _))))
    |>.andThen (SpendsStep.onlyIf (fun h => SpendsStep.structs ((StopReplicaTopic5.spends version {} h).mono (by decide) (Nat.le_refl _)))) : SpendsStep _ _) t).mono (by decide) (by decide)
theorem StopReplicaRequest.spends0 (version : Int16) (t : StopReplicaRequest) : Spends (StopReplicaRequest.decodeW version t) 0 1 :=
  (StopReplicaRequest.spends version t).mono (Nat.zero_le _) (Nat.le_refl _)

/-- message/messages.gen.go:2666-2681 `StopReplicaPartitionError5.Decode`, with the steps it takes -/
def StopReplicaPartitionError5.decodeW (_version : Int16) : StopReplicaPartitionError5 → ADec StopReplicaPartitionError5 :=
    ADec.field WDec.string (fun t x => { t with TopicName := x }) ;>>
    ADec.field WDec.int32 (fun t x => { t with PartitionIndex := x }) ;>>
    ADec.field WDec.int16 (fun t x => { t with ErrorCode := x })
theorem StopReplicaPartitionError5.erasesW (version : Int16) (t : StopReplicaPartitionError5) : Erases (StopReplicaPartitionError5.decodeW version t) (StopReplicaPartitionError5.decode version t) :=
  ((ErasesStep.field .stringW)
    |>.andThen (ErasesStep.field (.read _))
    |>.andThen (ErasesStep.field (.read _)) : ErasesStep _ _) t
theorem StopReplicaPartitionError5.spends (version : Int16) (t : StopReplicaPartitionError5) : Spends (StopReplicaPartitionError5.decodeW version t) 13 1 :=
  (((SpendsStep.field .string)
    |>.andThen (SpendsStep.field .int32)
    |>.andThen (SpendsStep.field .int16) : SpendsStep _ _) t).mono (by decide) (by decide)
theorem StopReplicaPartitionError5.spends0 (version : Int16) (t : StopReplicaPartitionError5) : Spends (StopReplicaPartitionError5.decodeW version t) 0 1 :=
  (StopReplicaPartitionError5.spends version t).mono (Nat.zero_le _) (Nat.le_refl _)

/-- message/messages.gen.go:2621-2641 `StopReplicaResponse.Decode`, with the steps it takes -/
def StopReplicaResponse.decodeW (version : Int16) : StopReplicaResponse → ADec StopReplicaResponse :=
    ADec.field WDec.int16 (fun t x => { t with ErrorCode := x }) ;>>
    WDec.fieldStructs (StopReplicaPartitionError5.decodeW version {}) (·.PartitionErrors) (fun t x => { t with PartitionErrors := x })
theorem StopReplicaResponse.erasesW (version : Int16) (t : StopReplicaResponse) : Erases (StopReplicaResponse.decodeW version t) (StopReplicaResponse.decode version t) :=
  ((ErasesStep.field (.read _))
    |>.andThen (ErasesStep.structsW (StopReplicaPartitionError5.erasesW version {})) : ErasesStep _ _) t
theorem StopReplicaResponse.spends (version : Int16) (t : StopReplicaResponse) : Spends (StopReplicaResponse.decodeW version t) 10 1 :=
  (((SpendsStep.field .int16)
    |>.andThen (SpendsStep.structs ((StopReplicaPartitionError5.spends version {}).mono (by decide) (Nat.le_refl _))) : SpendsStep _ _) t).mono (by decide) (by decide)
theorem StopReplicaResponse.spends0 (version : Int16) (t : StopReplicaResponse) : Spends (StopReplicaResponse.decodeW version t) 0 1 :=
  (StopReplicaResponse.spends version t).mono (Nat.zero_le _) (Nat.le_refl _)

/-- The structures of the StopReplica messages. -/
def workStopReplica : List (Σ M : MsgType, Int16 → M.T → ADec M.T) :=
  [⟨StopReplicaRequest.type, StopReplicaRequest.decodeW⟩,
   ⟨StopReplicaPartitionV05.type, StopReplicaPartitionV05.decodeW⟩,
   ⟨StopReplicaTopic5.type, StopReplicaTopic5.decodeW⟩,
   ⟨StopReplicaResponse.type, StopReplicaResponse.decodeW⟩,
   ⟨StopReplicaPartitionError5.type, StopReplicaPartitionError5.decodeW⟩]
theorem workStopReplica_erases : ∀ p ∈ workStopReplica, ∀ v t, Erases (p.2 v t) (p.1.decode v t) := by
  unfold workStopReplica
  simp only [List.forall_mem_cons]
  exact ⟨StopReplicaRequest.erasesW, StopReplicaPartitionV05.erasesW, StopReplicaTopic5.erasesW, StopReplicaResponse.erasesW, StopReplicaPartitionError5.erasesW, fun _ h => absurd h (by simp)⟩
theorem workStopReplica_spends : ∀ p ∈ workStopReplica, ∀ v t, Spends (p.2 v t) 0 1 := by
  unfold workStopReplica
  simp only [List.forall_mem_cons]
  exact ⟨StopReplicaRequest.spends0, StopReplicaPartitionV05.spends0, StopReplicaTopic5.spends0, StopReplicaResponse.spends0, StopReplicaPartitionError5.spends0, fun _ h => absurd h (by simp)⟩

end Kafka.Msg
