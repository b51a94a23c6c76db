import Verif.Message.Work
import Verif.Gen.Model.AlterPartitionReassignments
/-!
Generated by tools/gen_messages.py: steps taken by decoding the AlterPartitionReassignments messages.
-/
namespace Kafka.Msg

/-- message/messages.gen.go:11210-11221 `ReassignablePartition45.Decode`, with the steps it takes -/
def ReassignablePartition45.decodeW (_version : Int16) : ReassignablePartition45 → ADec ReassignablePartition45 :=
    ADec.field WDec.int32 (fun t x => { t with PartitionIndex := x }) ;>>
    ADec.field WDec.int32Array (fun t x => { t with Replicas := x })
theorem ReassignablePartition45.erasesW (version : Int16) (t : ReassignablePartition45) : Erases (ReassignablePartition45.decodeW version t) (ReassignablePartition45.decode version t) :=
  ((ErasesStep.field (.read _))
    |>.andThen (ErasesStep.field (.arrayOfW (.read _))) : ErasesStep _ _) t
theorem ReassignablePartition45.spends (version : Int16) (t : ReassignablePartition45) : Spends (ReassignablePartition45.decodeW version t) 14 1 :=
  (((SpendsStep.field .int32)
    |>.andThen (SpendsStep.field .int32Array) : SpendsStep _ _) t).mono (by decide) (by decide)
theorem ReassignablePartition45.spends0 (version : Int16) (t : ReassignablePartition45) : Spends (ReassignablePartition45.decodeW version t) 0 1 :=
  (ReassignablePartition45.spends version t).mono (Nat.zero_le _) (Nat.le_refl _)

/-- message/messages.gen.go:11168-11188 `ReassignableTopic45.Decode`, with the steps it takes -/
def ReassignableTopic45.decodeW (version : Int16) : ReassignableTopic45 → ADec ReassignableTopic45 :=
    ADec.field WDec.string (fun t x => { t with Name := x }) ;>>
    WDec.fieldStructs (ReassignablePartition45.decodeW version {}) (·.Partitions) (fun t x => { t with Partitions := x })
theorem ReassignableTopic45.erasesW (version : Int16) (t : ReassignableTopic45) : Erases (ReassignableTopic45.decodeW version t) (ReassignableTopic45.decode version t) :=
  ((ErasesStep.field .stringW)
    |>.andThen (ErasesStep.structsW (ReassignablePartition45.erasesW version {})) : ErasesStep _ _) t
theorem ReassignableTopic45.spends (version : Int16) (t : ReassignableTopic45) : Spends (ReassignableTopic45.decodeW version t) 10 1 :=
  (((SpendsStep.field .string)
    |>.andThen (SpendsStep.structs ((ReassignablePartition45.spends version {}).mono (by decide) (Nat.le_refl _))) : SpendsStep _ _) t).mono (by decide) (by decide)
theorem ReassignableTopic45.spends0 (version : Int16) (t : ReassignableTopic45) : Spends (ReassignableTopic45.decodeW version t) 0 1 :=
  (ReassignableTopic45.spends version t).mono (Nat.zero_le _) (Nat.le_refl _)

/-- message/messages.gen.go:11118-11138 `AlterPartitionReassignmentsRequest.Decode`, with the steps it takes -/
def AlterPartitionReassignmentsRequest.decodeW (version : Int16) : AlterPartitionReassignmentsRequest → ADec AlterPartitionReassignmentsRequest :=
    ADec.field WDec.int32 (fun t x => { t with TimeoutMs := x }) ;>>
    WDec.fieldStructs (ReassignableTopic45.decodeW version {}) (·.Topics) (fun t x => { t with Topics := x })
theorem AlterPartitionReassignmentsRequest.erasesW (version : Int16) (t : AlterPartitionReassignmentsRequest) : Erases (AlterPartitionReassignmentsRequest.decodeW version t) (AlterPartitionReassignmentsRequest.decode version t) :=
  ((ErasesStep.field (.read _))
    |>.andThen (ErasesStep.structsW (ReassignableTopic45.erasesW version {})) : ErasesStep _ _) t
theorem AlterPartitionReassignmentsRequest.spends (version : Int16) (t : AlterPartitionReassignmentsRequest) : Spends (AlterPartitionReassignmentsRequest.decodeW version t) 14 1 :=
  (((SpendsStep.field .int32)
    |>.andThen (SpendsStep.structs ((ReassignableTopic45.spends version {}).mono (by decide) (Nat.le_refl _))) : SpendsStep _ _) t).mono (by decide) (by decide)
theorem AlterPartitionReassignmentsRequest.spends0 (version : Int16) (t : AlterPartitionReassignmentsRequest) : Spends (AlterPartitionReassignmentsRequest.decodeW version t) 0 1 :=
  (AlterPartitionReassignmentsRequest.spends version t).mono (Nat.zero_le _) (Nat.le_refl _)

/-- message/messages.gen.go:11361-11376 `ReassignablePartitionResponse45.Decode`, with the steps it takes -/
def ReassignablePartitionResponse45.decodeW (_version : Int16) : ReassignablePartitionResponse45 → ADec ReassignablePartitionResponse45 :=
    ADec.field WDec.int32 (fun t x => { t with PartitionIndex := x }) ;>>
    ADec.field WDec.int16 (fun t x => { t with ErrorCode := x }) ;>>
    ADec.field WDec.string (fun t x => { t with ErrorMessage := x })
theorem ReassignablePartitionResponse45.erasesW (version : Int16) (t : ReassignablePartitionResponse45) : Erases (ReassignablePartitionResponse45.decodeW version t) (ReassignablePartitionResponse45.decode version t) :=
  ((ErasesStep.field (.read _))
    |>.andThen (ErasesStep.field (.read _))
    |>.andThen (ErasesStep.field .stringW) : ErasesStep _ _) t
theorem ReassignablePartitionResponse45.spends (version : Int16) (t : ReassignablePartitionResponse45) : Spends (ReassignablePartitionResponse45.decodeW version t) 13 1 :=
  (((SpendsStep.field .int32)
    |>.andThen (SpendsStep.field .int16)
    |>.andThen (SpendsStep.field .string) : SpendsStep _ _) t).mono (by decide) (by decide)
theorem ReassignablePartitionResponse45.spends0 (version : Int16) (t : ReassignablePartitionResponse45) : Spends (ReassignablePartitionResponse45.decodeW version t) 0 1 :=
  (ReassignablePartitionResponse45.spends version t).mono (Nat.zero_le _) (Nat.le_refl _)

/-- message/messages.gen.go:11316-11336 `ReassignableTopicResponse45.Decode`, with the steps it takes -/
def ReassignableTopicResponse45.decodeW (version : Int16) : ReassignableTopicResponse45 → ADec ReassignableTopicResponse45 :=
    ADec.field WDec.string (fun t x => { t with Name := x }) ;>>
    WDec.fieldStructs (ReassignablePartitionResponse45.decodeW version {}) (·.Partitions) (fun t x => { t with Partitions := x })
theorem ReassignableTopicResponse45.erasesW (version : Int16) (t : ReassignableTopicResponse45) : Erases (ReassignableTopicResponse45.decodeW version t) (ReassignableTopicResponse45.decode version t) :=
  ((ErasesStep.field .stringW)
    |>.andThen (ErasesStep.structsW (ReassignablePartitionResponse45.erasesW version {})) : ErasesStep _ _) t
theorem ReassignableTopicResponse45.spends (version : Int16) (t : ReassignableTopicResponse45) : Spends (ReassignableTopicResponse45.decodeW version t) 10 1 :=
  (((SpendsStep.field .string)
    |>.andThen (SpendsStep.structs ((ReassignablePartitionResponse45.spends version {}).mono (by decide) (Nat.le_refl _))) : SpendsStep _ _) t).mono (by decide) (by decide)
theorem ReassignableTopicResponse45.spends0 (version : Int16) (t : ReassignableTopicResponse45) : Spends (ReassignableTopicResponse45.decodeW version t) 0 1 :=
  (ReassignableTopicResponse45.spends version t).mono (Nat.zero_le _) (Nat.le_refl _)

/-- message/messages.gen.go:11258-11286 `AlterPartitionReassignmentsResponse.Decode`, with the steps it takes -/
def AlterPartitionReassignmentsResponse.decodeW (version : Int16) : AlterPartitionReassignmentsResponse → ADec AlterPartitionReassignmentsResponse :=
    ADec.field WDec.int32 (fun t x => { t with ThrottleTimeMs := x }) ;>>
    ADec.field WDec.int16 (fun t x => { t with ErrorCode := x }) ;>>
    ADec.field WDec.string (fun t x => { t with ErrorMessage := x }) ;>>
    WDec.fieldStructs (ReassignableTopicResponse45.decodeW version {}) (·.Responses) (fun t x => { t with Responses := x })
theorem AlterPartitionReassignmentsResponse.erasesW (version : Int16) (t : AlterPartitionReassignmentsResponse) : Erases (AlterPartitionReassignmentsResponse.decodeW version t) (AlterPartitionReassignmentsResponse.decode version t) :=
  ((ErasesStep.field (.read _))
    |>.andThen (ErasesStep.field (.read _))
    |>.andThen (ErasesStep.field .stringW)
    |>.andThen (ErasesStep.structsW (ReassignableTopicResponse45.erasesW version {})) : ErasesStep _ _) t
theorem AlterPartitionReassignmentsResponse.spends (version : Int16) (t : AlterPartitionReassignmentsResponse) : Spends (AlterPartitionReassignmentsResponse.decodeW version t) 20 1 :=
  (((SpendsStep.field .int32)
    |>.andThen (SpendsStep.field .int16)
    |>.andThen (SpendsStep.field .string)
    |>.andThen (SpendsStep.structs ((ReassignableTopicResponse45.spends version {}).mono (by decide) (Nat.le_refl _))) : SpendsStep _ _) t).mono (by decide) (by decide)
theorem AlterPartitionReassignmentsResponse.spends0 (version : Int16) (t : AlterPartitionReassignmentsResponse) : Spends (AlterPartitionReassignmentsResponse.decodeW version t) 0 1 :=
  (AlterPartitionReassignmentsResponse.spends version t).mono (Nat.zero_le _) (Nat.le_refl _)

/-- The structures of the AlterPartitionReassignments messages. -/
def workAlterPartitionReassignments : List (Σ M : MsgType, Int16 → M.T → ADec M.T) :=
  [⟨AlterPartitionReassignmentsRequest.type, AlterPartitionReassignmentsRequest.decodeW⟩,
   ⟨ReassignableTopic45.type, ReassignableTopic45.decodeW⟩,
   ⟨ReassignablePartition45.type, ReassignablePartition45.decodeW⟩,
   ⟨AlterPartitionReassignmentsResponse.type, AlterPartitionReassignmentsResponse.decodeW⟩,
   ⟨ReassignableTopicResponse45.type, ReassignableTopicResponse45.decodeW⟩,
   ⟨ReassignablePartitionResponse45.type, ReassignablePartitionResponse45.decodeW⟩]
theorem workAlterPartitionReassignments_erases : ∀ p ∈ workAlterPartitionReassignments, ∀ v t, Erases (p.2 v t) (p.1.decode v t) := by
  unfold workAlterPartitionReassignments
  simp only [List.forall_mem_cons]
  exact ⟨AlterPartitionReassignmentsRequest.erasesW, ReassignableTopic45.erasesW, ReassignablePartition45.erasesW, AlterPartitionReassignmentsResponse.erasesW, ReassignableTopicResponse45.erasesW, ReassignablePartitionResponse45.erasesW, fun _ h => absurd h (by simp)⟩
theorem workAlterPartitionReassignments_spends : ∀ p ∈ workAlterPartitionReassignments, ∀ v t, Spends (p.2 v t) 0 1 := by
  unfold workAlterPartitionReassignments
  simp only [List.forall_mem_cons]
  exact ⟨AlterPartitionReassignmentsRequest.spends0, ReassignableTopic45.spends0, ReassignablePartition45.spends0, AlterPartitionReassignmentsResponse.spends0, ReassignableTopicResponse45.spends0, ReassignablePartitionResponse45.spends0, fun _ h => absurd h (by simp)⟩

end Kafka.Msg
