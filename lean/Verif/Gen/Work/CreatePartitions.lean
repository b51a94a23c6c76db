import Verif.Message.Work
import Verif.Gen.Model.CreatePartitions
/-!
Generated by tools/gen_messages.py: steps taken by decoding the CreatePartitions messages.
-/
namespace Kafka.Msg

/-- message/messages.gen.go:9804-9811 `CreatePartitionsAssignment37.Decode`, with the steps it takes -/
def CreatePartitionsAssignment37.decodeW (_version : Int16) : CreatePartitionsAssignment37 → ADec CreatePartitionsAssignment37 :=
    ADec.field WDec.int32Array (fun t x => { t with BrokerIds := x })
theorem CreatePartitionsAssignment37.erasesW (version : Int16) (t : CreatePartitionsAssignment37) : Erases (CreatePartitionsAssignment37.decodeW version t) (CreatePartitionsAssignment37.decode version t) :=
  (ErasesStep.field (.arrayOfW (.read _)) : ErasesStep _ _) t
theorem CreatePartitionsAssignment37.spends (version : Int16) (t : CreatePartitionsAssignment37) : Spends (CreatePartitionsAssignment37.decodeW version t) 7 1 :=
  ((SpendsStep.field .int32Array : SpendsStep _ _) t).mono (by decide) (by decide)
theorem CreatePartitionsAssignment37.spends0 (version : Int16) (t : CreatePartitionsAssignment37) : Spends (CreatePartitionsAssignment37.decodeW version t) 0 1 :=
  (CreatePartitionsAssignment37.spends version t).mono (Nat.zero_le _) (Nat.le_refl _)

/-- message/messages.gen.go:9761-9785 `CreatePartitionsTopic37.Decode`, with the steps it takes -/
def CreatePartitionsTopic37.decodeW (version : Int16) : CreatePartitionsTopic37 → ADec CreatePartitionsTopic37 :=
    ADec.field WDec.string (fun t x => { t with Name := x }) ;>>
    ADec.field WDec.int32 (fun t x => { t with Count := x }) ;>>
    WDec.fieldStructs (CreatePartitionsAssignment37.decodeW version {}) (·.Assignments) (fun t x => { t with Assignments := x })
theorem CreatePartitionsTopic37.erasesW (version : Int16) (t : CreatePartitionsTopic37) : Erases (CreatePartitionsTopic37.decodeW version t) (CreatePartitionsTopic37.decode version t) :=
  ((ErasesStep.field .stringW)
    |>.andThen (ErasesStep.field (.read _))
    |>.andThen (ErasesStep.structsW (CreatePartitionsAssignment37.erasesW version {})) : ErasesStep _ _) t
theorem CreatePartitionsTopic37.spends (version : Int16) (t : CreatePartitionsTopic37) : Spends (CreatePartitionsTopic37.decodeW version t) 17 1 :=
  (((SpendsStep.field .string)
    |>.andThen (SpendsStep.field .int32)
    |>.andThen (SpendsStep.structs ((CreatePartitionsAssignment37.spends version {}).mono (by decide) (Nat.le_refl _))) : SpendsStep _ _) t).mono (by decide) (by decide)
theorem CreatePartitionsTopic37.spends0 (version : Int16) (t : CreatePartitionsTopic37) : Spends (CreatePartitionsTopic37.decodeW version t) 0 1 :=
  (CreatePartitionsTopic37.spends version t).mono (Nat.zero_le _) (Nat.le_refl _)

/-- message/messages.gen.go:9704-9728 `CreatePartitionsRequest.Decode`, with the steps it takes -/
def CreatePartitionsRequest.decodeW (version : Int16) : CreatePartitionsRequest → ADec CreatePartitionsRequest :=
    WDec.fieldStructs (CreatePartitionsTopic37.decodeW version {}) (·.Topics) (fun t x => { t with Topics := x }) ;>>
    ADec.field WDec.int32 (fun t x => { t with TimeoutMs := x }) ;>>
    ADec.field WDec.bool (fun t x => { t with ValidateOnly := x })
theorem CreatePartitionsRequest.erasesW (version : Int16) (t : CreatePartitionsRequest) : Erases (CreatePartitionsRequest.decodeW version t) (CreatePartitionsRequest.decode version t) :=
  ((ErasesStep.structsW (CreatePartitionsTopic37.erasesW version {}))
    |>.andThen (ErasesStep.field (.read _))
    |>.andThen (ErasesStep.field (.read _)) : ErasesStep _ _) t
theorem CreatePartitionsRequest.spends (version : Int16) (t : CreatePartitionsRequest) : Spends (CreatePartitionsRequest.decodeW version t) 15 1 :=
  (((SpendsStep.structs ((CreatePartitionsTopic37.spends version {}).mono (by decide) (Nat.le_refl _)))
    |>.andThen (SpendsStep.field .int32)
    |>.andThen (SpendsStep.field .bool) : SpendsStep _ _) t).mono (by decide) (by decide)
theorem CreatePartitionsRequest.spends0 (version : Int16) (t : CreatePartitionsRequest) : Spends (CreatePartitionsRequest.decodeW version t) 0 1 :=
  (CreatePartitionsRequest.spends version t).mono (Nat.zero_le _) (Nat.le_refl _)

/-- message/messages.gen.go:9887-9902 `CreatePartitionsTopicResult37.Decode`, with the steps it takes -/
def CreatePartitionsTopicResult37.decodeW (_version : Int16) : CreatePartitionsTopicResult37 → ADec CreatePartitionsTopicResult37 :=
    ADec.field WDec.string (fun t x => { t with Name := x }) ;>>
    ADec.field WDec.int16 (fun t x => { t with ErrorCode := x }) ;>>
    ADec.field WDec.string (fun t x => { t with ErrorMessage := x })
theorem CreatePartitionsTopicResult37.erasesW (version : Int16) (t : CreatePartitionsTopicResult37) : Erases (CreatePartitionsTopicResult37.decodeW version t) (CreatePartitionsTopicResult37.decode version t) :=
  ((ErasesStep.field .stringW)
    |>.andThen (ErasesStep.field (.read _))
    |>.andThen (ErasesStep.field .stringW) : ErasesStep _ _) t
theorem CreatePartitionsTopicResult37.spends (version : Int16) (t : CreatePartitionsTopicResult37) : Spends (CreatePartitionsTopicResult37.decodeW version t) 9 1 :=
  (((SpendsStep.field .string)
    |>.andThen (SpendsStep.field .int16)
    |>.andThen (SpendsStep.field .string) : SpendsStep _ _) t).mono (by decide) (by decide)
theorem CreatePartitionsTopicResult37.spends0 (version : Int16) (t : CreatePartitionsTopicResult37) : Spends (CreatePartitionsTopicResult37.decodeW version t) 0 1 :=
  (CreatePartitionsTopicResult37.spends version t).mono (Nat.zero_le _) (Nat.le_refl _)

/-- message/messages.gen.go:9842-9862 `CreatePartitionsResponse.Decode`, with the steps it takes -/
def CreatePartitionsResponse.decodeW (version : Int16) : CreatePartitionsResponse → ADec CreatePartitionsResponse :=
    ADec.field WDec.int32 (fun t x => { t with ThrottleTimeMs := x }) ;>>
    WDec.fieldStructs (CreatePartitionsTopicResult37.decodeW version {}) (·.Results) (fun t x => { t with Results := x })
theorem CreatePartitionsResponse.erasesW (version : Int16) (t : CreatePartitionsResponse) : Erases (CreatePartitionsResponse.decodeW version t) (CreatePartitionsResponse.decode version t) :=
  ((ErasesStep.field (.read _))
    |>.andThen (ErasesStep.structsW (CreatePartitionsTopicResult37.erasesW version {})) : ErasesStep _ _) t
theorem CreatePartitionsResponse.spends (version : Int16) (t : CreatePartitionsResponse) : Spends (CreatePartitionsResponse.decodeW version t) 14 1 :=
  (((SpendsStep.field .int32)
    |>.andThen (SpendsStep.structs ((CreatePartitionsTopicResult37.spends version {}).mono (by decide) (Nat.le_refl _))) : SpendsStep _ _) t).mono (by decide) (by decide)
theorem CreatePartitionsResponse.spends0 (version : Int16) (t : CreatePartitionsResponse) : Spends (CreatePartitionsResponse.decodeW version t) 0 1 :=
  (CreatePartitionsResponse.spends version t).mono (Nat.zero_le _) (Nat.le_refl _)

/-- The structures of the CreatePartitions messages. -/
def workCreatePartitions : List (Σ M : MsgType, Int16 → M.T → ADec M.T) :=
  [⟨CreatePartitionsRequest.type, CreatePartitionsRequest.decodeW⟩,
   ⟨CreatePartitionsTopic37.type, CreatePartitionsTopic37.decodeW⟩,
   ⟨CreatePartitionsAssignment37.type, CreatePartitionsAssignment37.decodeW⟩,
   ⟨CreatePartitionsResponse.type, CreatePartitionsResponse.decodeW⟩,
   ⟨CreatePartitionsTopicResult37.type, CreatePartitionsTopicResult37.decodeW⟩]
theorem workCreatePartitions_erases : ∀ p ∈ workCreatePartitions, ∀ v t, Erases (p.2 v t) (p.1.decode v t) := by
  unfold workCreatePartitions
  simp only [List.forall_mem_cons]
  exact ⟨CreatePartitionsRequest.erasesW, CreatePartitionsTopic37.erasesW, CreatePartitionsAssignment37.erasesW, CreatePartitionsResponse.erasesW, CreatePartitionsTopicResult37.erasesW, fun _ h => absurd h (by simp)⟩
theorem workCreatePartitions_spends : ∀ p ∈ workCreatePartitions, ∀ v t, Spends (p.2 v t) 0 1 := by
  unfold workCreatePartitions
  simp only [List.forall_mem_cons]
  exact ⟨CreatePartitionsRequest.spends0, CreatePartitionsTopic37.spends0, CreatePartitionsAssignment37.spends0, CreatePartitionsResponse.spends0, CreatePartitionsTopicResult37.spends0, fun _ h => absurd h (by simp)⟩

end Kafka.Msg
