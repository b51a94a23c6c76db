import Verif.Message.Work
import Verif.Gen.Model.OffsetDelete
/-!
Generated by tools/gen_messages.py: steps taken by decoding the OffsetDelete messages.
-/
namespace Kafka.Msg

/-- message/messages.gen.go:11742-11749 `OffsetDeleteRequestPartition47.Decode`, with the steps it takes -/
def OffsetDeleteRequestPartition47.decodeW (_version : Int16) : OffsetDeleteRequestPartition47 → ADec OffsetDeleteRequestPartition47 :=
    ADec.field WDec.int32 (fun t x => { t with PartitionIndex := x })
theorem OffsetDeleteRequestPartition47.erasesW (version : Int16) (t : OffsetDeleteRequestPartition47) : Erases (OffsetDeleteRequestPartition47.decodeW version t) (OffsetDeleteRequestPartition47.decode version t) :=
  (ErasesStep.field (.read _) : ErasesStep _ _) t
theorem OffsetDeleteRequestPartition47.spends (version : Int16) (t : OffsetDeleteRequestPartition47) : Spends (OffsetDeleteRequestPartition47.decodeW version t) 7 1 :=
  ((SpendsStep.field .int32 : SpendsStep _ _) t).mono (by decide) (by decide)
theorem OffsetDeleteRequestPartition47.spends0 (version : Int16) (t : OffsetDeleteRequestPartition47) : Spends (OffsetDeleteRequestPartition47.decodeW version t) 0 1 :=
  (OffsetDeleteRequestPartition47.spends version t).mono (Nat.zero_le _) (Nat.le_refl _)

/-- message/messages.gen.go:11703-11723 `OffsetDeleteRequestTopic47.Decode`, with the steps it takes -/
def OffsetDeleteRequestTopic47.decodeW (version : Int16) : OffsetDeleteRequestTopic47 → ADec OffsetDeleteRequestTopic47 :=
    ADec.field WDec.string (fun t x => { t with Name := x }) ;>>
    WDec.fieldStructs (OffsetDeleteRequestPartition47.decodeW version {}) (·.Partitions) (fun t x => { t with Partitions := x })
theorem OffsetDeleteRequestTopic47.erasesW (version : Int16) (t : OffsetDeleteRequestTopic47) : Erases (OffsetDeleteRequestTopic47.decodeW version t) (OffsetDeleteRequestTopic47.decode version t) :=
  ((ErasesStep.field .stringW)
    |>.andThen (ErasesStep.structsW (OffsetDeleteRequestPartition47.erasesW version {})) : ErasesStep _ _) t
theorem OffsetDeleteRequestTopic47.spends (version : Int16) (t : OffsetDeleteRequestTopic47) : Spends (OffsetDeleteRequestTopic47.decodeW version t) 10 1 :=
  (((SpendsStep.field .string)
    |>.andThen (SpendsStep.structs ((OffsetDeleteRequestPartition47.spends version {}).mono (by decide) (Nat.le_refl _))) : SpendsStep _ _) t).mono (by decide) (by decide)
theorem OffsetDeleteRequestTopic47.spends0 (version : Int16) (t : OffsetDeleteRequestTopic47) : Spends (OffsetDeleteRequestTopic47.decodeW version t) 0 1 :=
  (OffsetDeleteRequestTopic47.spends version t).mono (Nat.zero_le _) (Nat.le_refl _)

/-- message/messages.gen.go:11653-11673 `OffsetDeleteRequest.Decode`, with the steps it takes -/
def OffsetDeleteRequest.decodeW (version : Int16) : OffsetDeleteRequest → ADec OffsetDeleteRequest :=
    ADec.field WDec.string (fun t x => { t with GroupId := x }) ;>>
    WDec.fieldStructs (OffsetDeleteRequestTopic47.decodeW version {}) (·.Topics) (fun t x => { t with Topics := x })
theorem OffsetDeleteRequest.erasesW (version : Int16) (t : OffsetDeleteRequest) : Erases (OffsetDeleteRequest.decodeW version t) (OffsetDeleteRequest.decode version t) :=
  ((ErasesStep.field .stringW)
    |>.andThen (ErasesStep.structsW (OffsetDeleteRequestTopic47.erasesW version {})) : ErasesStep _ _) t
theorem OffsetDeleteRequest.spends (version : Int16) (t : OffsetDeleteRequest) : Spends (OffsetDeleteRequest.decodeW version t) 10 1 :=
  (((SpendsStep.field .string)
    |>.andThen (SpendsStep.structs ((OffsetDeleteRequestTopic47.spends version {}).mono (by decide) (Nat.le_refl _))) : SpendsStep _ _) t).mono (by decide) (by decide)
theorem OffsetDeleteRequest.spends0 (version : Int16) (t : OffsetDeleteRequest) : Spends (OffsetDeleteRequest.decodeW version t) 0 1 :=
  (OffsetDeleteRequest.spends version t).mono (Nat.zero_le _) (Nat.le_refl _)

/-- message/messages.gen.go:11879-11890 `OffsetDeleteResponsePartition47.Decode`, with the steps it takes -/
def OffsetDeleteResponsePartition47.decodeW (_version : Int16) : OffsetDeleteResponsePartition47 → ADec OffsetDeleteResponsePartition47 :=
    ADec.field WDec.int32 (fun t x => { t with PartitionIndex := x }) ;>>
    ADec.field WDec.int16 (fun t x => { t with ErrorCode := x })
theorem OffsetDeleteResponsePartition47.erasesW (version : Int16) (t : OffsetDeleteResponsePartition47) : Erases (OffsetDeleteResponsePartition47.decodeW version t) (OffsetDeleteResponsePartition47.decode version t) :=
  ((ErasesStep.field (.read _))
    |>.andThen (ErasesStep.field (.read _)) : ErasesStep _ _) t
theorem OffsetDeleteResponsePartition47.spends (version : Int16) (t : OffsetDeleteResponsePartition47) : Spends (OffsetDeleteResponsePartition47.decodeW version t) 10 1 :=
  (((SpendsStep.field .int32)
    |>.andThen (SpendsStep.field .int16) : SpendsStep _ _) t).mono (by decide) (by decide)
theorem OffsetDeleteResponsePartition47.spends0 (version : Int16) (t : OffsetDeleteResponsePartition47) : Spends (OffsetDeleteResponsePartition47.decodeW version t) 0 1 :=
  (OffsetDeleteResponsePartition47.spends version t).mono (Nat.zero_le _) (Nat.le_refl _)

/-- message/messages.gen.go:11837-11857 `OffsetDeleteResponseTopic47.Decode`, with the steps it takes -/
def OffsetDeleteResponseTopic47.decodeW (version : Int16) : OffsetDeleteResponseTopic47 → ADec OffsetDeleteResponseTopic47 :=
    ADec.field WDec.string (fun t x => { t with Name := x }) ;>>
    WDec.fieldStructs (OffsetDeleteResponsePartition47.decodeW version {}) (·.Partitions) (fun t x => { t with Partitions := x })
theorem OffsetDeleteResponseTopic47.erasesW (version : Int16) (t : OffsetDeleteResponseTopic47) : Erases (OffsetDeleteResponseTopic47.decodeW version t) (OffsetDeleteResponseTopic47.decode version t) :=
  ((ErasesStep.field .stringW)
    |>.andThen (ErasesStep.structsW (OffsetDeleteResponsePartition47.erasesW version {})) : ErasesStep _ _) t
theorem OffsetDeleteResponseTopic47.spends (version : Int16) (t : OffsetDeleteResponseTopic47) : Spends (OffsetDeleteResponseTopic47.decodeW version t) 10 1 :=
  (((SpendsStep.field .string)
    |>.andThen (SpendsStep.structs ((OffsetDeleteResponsePartition47.spends version {}).mono (by decide) (Nat.le_refl _))) : SpendsStep _ _) t).mono (by decide) (by decide)
theorem OffsetDeleteResponseTopic47.spends0 (version : Int16) (t : OffsetDeleteResponseTopic47) : Spends (OffsetDeleteResponseTopic47.decodeW version t) 0 1 :=
  (OffsetDeleteResponseTopic47.spends version t).mono (Nat.zero_le _) (Nat.le_refl _)

/-- message/messages.gen.go:11783-11807 `OffsetDeleteResponse.Decode`, with the steps it takes -/
def OffsetDeleteResponse.decodeW (version : Int16) : OffsetDeleteResponse → ADec OffsetDeleteResponse :=
    ADec.field WDec.int16 (fun t x => { t with ErrorCode := x }) ;>>
    ADec.field WDec.int32 (fun t x => { t with ThrottleTimeMs := x }) ;>>
    WDec.fieldStructs (OffsetDeleteResponseTopic47.decodeW version {}) (·.Topics) (fun t x => { t with Topics := x })
theorem OffsetDeleteResponse.erasesW (version : Int16) (t : OffsetDeleteResponse) : Erases (OffsetDeleteResponse.decodeW version t) (OffsetDeleteResponse.decode version t) :=
  ((ErasesStep.field (.read _))
    |>.andThen (ErasesStep.field (.read _))
    |>.andThen (ErasesStep.structsW (OffsetDeleteResponseTopic47.erasesW version {})) : ErasesStep _ _) t
theorem OffsetDeleteResponse.spends (version : Int16) (t : OffsetDeleteResponse) : Spends (OffsetDeleteResponse.decodeW version t) 17 1 :=
  (((SpendsStep.field .int16)
    |>.andThen (SpendsStep.field .int32)
    |>.andThen (SpendsStep.structs ((OffsetDeleteResponseTopic47.spends version {}).mono (by decide) (Nat.le_refl _))) : SpendsStep _ _) t).mono (by decide) (by decide)
theorem OffsetDeleteResponse.spends0 (version : Int16) (t : OffsetDeleteResponse) : Spends (OffsetDeleteResponse.decodeW version t) 0 1 :=
  (OffsetDeleteResponse.spends version t).mono (Nat.zero_le _) (Nat.le_refl _)

/-- The structures of the OffsetDelete messages. -/
def workOffsetDelete : List (Σ M : MsgType, Int16 → M.T → ADec M.T) :=
  [⟨OffsetDeleteRequest.type, OffsetDeleteRequest.decodeW⟩,
   ⟨OffsetDeleteRequestTopic47.type, OffsetDeleteRequestTopic47.decodeW⟩,
   ⟨OffsetDeleteRequestPartition47.type, OffsetDeleteRequestPartition47.decodeW⟩,
   ⟨OffsetDeleteResponse.type, OffsetDeleteResponse.decodeW⟩,
   ⟨OffsetDeleteResponseTopic47.type, OffsetDeleteResponseTopic47.decodeW⟩,
   ⟨OffsetDeleteResponsePartition47.type, OffsetDeleteResponsePartition47.decodeW⟩]
theorem workOffsetDelete_erases : ∀ p ∈ workOffsetDelete, ∀ v t, Erases (p.2 v t) (p.1.decode v t) := by
  unfold workOffsetDelete
  simp only [List.forall_mem_cons]
  exact ⟨OffsetDeleteRequest.erasesW, OffsetDeleteRequestTopic47.erasesW, OffsetDeleteRequestPartition47.erasesW, OffsetDeleteResponse.erasesW, OffsetDeleteResponseTopic47.erasesW, OffsetDeleteResponsePartition47.erasesW, fun _ h => absurd h (by simp)⟩
theorem workOffsetDelete_spends : ∀ p ∈ workOffsetDelete, ∀ v t, Spends (p.2 v t) 0 1 := by
  unfold workOffsetDelete
  simp only [List.forall_mem_cons]
  exact ⟨OffsetDeleteRequest.spends0, OffsetDeleteRequestTopic47.spends0, OffsetDeleteRequestPartition47.spends0, OffsetDeleteResponse.spends0, OffsetDeleteResponseTopic47.spends0, OffsetDeleteResponsePartition47.spends0, fun _ h => absurd h (by simp)⟩

end Kafka.Msg
