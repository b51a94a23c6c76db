import Verif.Message.Gate
import Verif.Gen.Spec.Produce
/-!
Generated by tools/gen_messages.py: the version-dependent fields of the Produce messages.
-/
set_option linter.unusedSimpArgs false
namespace Kafka.Msg

/-- `t.TransactionalId = x` -/
def ProduceRequest_with_TransactionalId (t : ProduceRequest) (x : GoString) : ProduceRequest := { t with TransactionalId := x }
/-- `ProduceRequest.TransactionalId` -/
def ProduceRequest.gateTransactionalId : Gate :=
  { M := ProduceRequest.type, L := ProduceRequest.layout, field := "TransactionalId", α := GoString, present := fun v => v ≥ 3,
    get := fun t => ProduceRequest.TransactionalId t, set := fun t x => ProduceRequest_with_TransactionalId t x }
theorem ProduceRequest.gateTransactionalId_holds : ProduceRequest.gateTransactionalId.Holds where
  get_set _ _ := rfl
  encode v h t x := by
    change ProduceRequest.encode v (ProduceRequest_with_TransactionalId t x) = ProduceRequest.encode v t
    change ¬(v ≥ 3) at h
    simp only [ProduceRequest.encode, ProduceRequest_with_TransactionalId, onlyIf_neg h]
  size v h t x := by
    change ProduceRequest.size v (ProduceRequest_with_TransactionalId t x) = ProduceRequest.size v t
    change ¬(v ≥ 3) at h
    simp only [ProduceRequest.size, ProduceRequest_with_TransactionalId, onlyIf_neg h]
  decode v h := by
    change ¬(v ≥ 3) at h
    refine (?_ : Keeps (fun t : ProduceRequest => t.TransactionalId) (ProduceRequest.decode v))
    unfold ProduceRequest.decode
    repeat' first
      | exact Keeps.absent h
      | apply Keeps.andThen
      | exact Keeps.field fun _ _ => rfl
      | exact Keeps.fieldStructs fun _ _ => rfl
      | apply Keeps.onlyIf
  carried v h t t0 t1 := by
    change (ProduceRequest.seen v t t0).TransactionalId = (ProduceRequest.seen v t t1).TransactionalId
    change v ≥ 3 at h
    simp only [ProduceRequest.seen, if_pos h]

/-- `t.ThrottleTimeMs = x` -/
def ProduceResponse_with_ThrottleTimeMs (t : ProduceResponse) (x : Int32) : ProduceResponse := { t with ThrottleTimeMs := x }
/-- `ProduceResponse.ThrottleTimeMs` -/
def ProduceResponse.gateThrottleTimeMs : Gate :=
  { M := ProduceResponse.type, L := ProduceResponse.layout, field := "ThrottleTimeMs", α := Int32, present := fun v => v ≥ 1,
    get := fun t => ProduceResponse.ThrottleTimeMs t, set := fun t x => ProduceResponse_with_ThrottleTimeMs t x }
theorem ProduceResponse.gateThrottleTimeMs_holds : ProduceResponse.gateThrottleTimeMs.Holds where
  get_set _ _ := rfl
  encode v h t x := by
    change ProduceResponse.encode v (ProduceResponse_with_ThrottleTimeMs t x) = ProduceResponse.encode v t
    change ¬(v ≥ 1) at h
    simp only [ProduceResponse.encode, ProduceResponse_with_ThrottleTimeMs, onlyIf_neg h]
  size v h t x := by
    change ProduceResponse.size v (ProduceResponse_with_ThrottleTimeMs t x) = ProduceResponse.size v t
    change ¬(v ≥ 1) at h
    simp only [ProduceResponse.size, ProduceResponse_with_ThrottleTimeMs, onlyIf_neg h]
  decode v h := by
    change ¬(v ≥ 1) at h
    refine (?_ : Keeps (fun t : ProduceResponse => t.ThrottleTimeMs) (ProduceResponse.decode v))
    unfold ProduceResponse.decode
    repeat' first
      | exact Keeps.absent h
      | apply Keeps.andThen
      | exact Keeps.field fun _ _ => rfl
      | exact Keeps.fieldStructs fun _ _ => rfl
      | apply Keeps.onlyIf
  carried v h t t0 t1 := by
    change (ProduceResponse.seen v t t0).ThrottleTimeMs = (ProduceResponse.seen v t t1).ThrottleTimeMs
    change v ≥ 1 at h
    simp only [ProduceResponse.seen, if_pos h]

/-- `t.LogAppendTimeMs = x` -/
def PartitionProduceResponse0_with_LogAppendTimeMs (t : PartitionProduceResponse0) (x : Int64) : PartitionProduceResponse0 := { t with LogAppendTimeMs := x }
/-- `PartitionProduceResponse0.LogAppendTimeMs` -/
def PartitionProduceResponse0.gateLogAppendTimeMs : Gate :=
  { M := PartitionProduceResponse0.type, L := PartitionProduceResponse0.layout, field := "LogAppendTimeMs", α := Int64, present := fun v => v ≥ 2,
    get := fun t => PartitionProduceResponse0.LogAppendTimeMs t, set := fun t x => PartitionProduceResponse0_with_LogAppendTimeMs t x }
theorem PartitionProduceResponse0.gateLogAppendTimeMs_holds : PartitionProduceResponse0.gateLogAppendTimeMs.Holds where
  get_set _ _ := rfl
  encode v h t x := by
    change PartitionProduceResponse0.encode v (PartitionProduceResponse0_with_LogAppendTimeMs t x) = PartitionProduceResponse0.encode v t
    change ¬(v ≥ 2) at h
    simp only [PartitionProduceResponse0.encode, PartitionProduceResponse0_with_LogAppendTimeMs, onlyIf_neg h]
  size v h t x := by
    change PartitionProduceResponse0.size v (PartitionProduceResponse0_with_LogAppendTimeMs t x) = PartitionProduceResponse0.size v t
    change ¬(v ≥ 2) at h
    simp only [PartitionProduceResponse0.size, PartitionProduceResponse0_with_LogAppendTimeMs, onlyIf_neg h]
  decode v h := by
    change ¬(v ≥ 2) at h
    refine (?_ : Keeps (fun t : PartitionProduceResponse0 => t.LogAppendTimeMs) (PartitionProduceResponse0.decode v))
    unfold PartitionProduceResponse0.decode
    repeat' first
      | exact Keeps.absent h
      | apply Keeps.andThen
      | exact Keeps.field fun _ _ => rfl
      | exact Keeps.fieldStructs fun _ _ => rfl
      | apply Keeps.onlyIf
  carried v h t t0 t1 := by
    change (PartitionProduceResponse0.seen v t t0).LogAppendTimeMs = (PartitionProduceResponse0.seen v t t1).LogAppendTimeMs
    change v ≥ 2 at h
    simp only [PartitionProduceResponse0.seen, if_pos h]

/-- `t.LogStartOffset = x` -/
def PartitionProduceResponse0_with_LogStartOffset (t : PartitionProduceResponse0) (x : Int64) : PartitionProduceResponse0 := { t with LogStartOffset := x }
/-- `PartitionProduceResponse0.LogStartOffset` -/
def PartitionProduceResponse0.gateLogStartOffset : Gate :=
  { M := PartitionProduceResponse0.type, L := PartitionProduceResponse0.layout, field := "LogStartOffset", α := Int64, present := fun v => v ≥ 5,
    get := fun t => PartitionProduceResponse0.LogStartOffset t, set := fun t x => PartitionProduceResponse0_with_LogStartOffset t x }
theorem PartitionProduceResponse0.gateLogStartOffset_holds : PartitionProduceResponse0.gateLogStartOffset.Holds where
  get_set _ _ := rfl
  encode v h t x := by
    change PartitionProduceResponse0.encode v (PartitionProduceResponse0_with_LogStartOffset t x) = PartitionProduceResponse0.encode v t
    change ¬(v ≥ 5) at h
    simp only [PartitionProduceResponse0.encode, PartitionProduceResponse0_with_LogStartOffset, onlyIf_neg h]
  size v h t x := by
    change PartitionProduceResponse0.size v (PartitionProduceResponse0_with_LogStartOffset t x) = PartitionProduceResponse0.size v t
    change ¬(v ≥ 5) at h
    simp only [PartitionProduceResponse0.size, PartitionProduceResponse0_with_LogStartOffset, onlyIf_neg h]
  decode v h := by
    change ¬(v ≥ 5) at h
    refine (?_ : Keeps (fun t : PartitionProduceResponse0 => t.LogStartOffset) (PartitionProduceResponse0.decode v))
    unfold PartitionProduceResponse0.decode
    repeat' first
      | exact Keeps.absent h
      | apply Keeps.andThen
      | exact Keeps.field fun _ _ => rfl
      | exact Keeps.fieldStructs fun _ _ => rfl
      | apply Keeps.onlyIf
  carried v h t t0 t1 := by
    change (PartitionProduceResponse0.seen v t t0).LogStartOffset = (PartitionProduceResponse0.seen v t t1).LogStartOffset
    change v ≥ 5 at h
    simp only [PartitionProduceResponse0.seen, if_pos h]

/-- `t.RecordErrors = x` -/
def PartitionProduceResponse0_with_RecordErrors (t : PartitionProduceResponse0) (x : Slice BatchIndexAndErrorMessage0) : PartitionProduceResponse0 := { t with RecordErrors := x }
/-- `PartitionProduceResponse0.RecordErrors` -/
def PartitionProduceResponse0.gateRecordErrors : Gate :=
  { M := PartitionProduceResponse0.type, L := PartitionProduceResponse0.layout, field := "RecordErrors", α := Slice BatchIndexAndErrorMessage0, present := fun v => v ≥ 8,
    get := fun t => PartitionProduceResponse0.RecordErrors t, set := fun t x => PartitionProduceResponse0_with_RecordErrors t x }
theorem PartitionProduceResponse0.gateRecordErrors_holds : PartitionProduceResponse0.gateRecordErrors.Holds where
  get_set _ _ := rfl
  encode v h t x := by
    change PartitionProduceResponse0.encode v (PartitionProduceResponse0_with_RecordErrors t x) = PartitionProduceResponse0.encode v t
    change ¬(v ≥ 8) at h
    simp only [PartitionProduceResponse0.encode, PartitionProduceResponse0_with_RecordErrors, onlyIf_neg h]
  size v h t x := by
    change PartitionProduceResponse0.size v (PartitionProduceResponse0_with_RecordErrors t x) = PartitionProduceResponse0.size v t
    change ¬(v ≥ 8) at h
    simp only [PartitionProduceResponse0.size, PartitionProduceResponse0_with_RecordErrors, onlyIf_neg h]
  decode v h := by
    change ¬(v ≥ 8) at h
    refine (?_ : Keeps (fun t : PartitionProduceResponse0 => t.RecordErrors) (PartitionProduceResponse0.decode v))
    unfold PartitionProduceResponse0.decode
    repeat' first
      | exact Keeps.absent h
      | apply Keeps.andThen
      | exact Keeps.field fun _ _ => rfl
      | exact Keeps.fieldStructs fun _ _ => rfl
      | apply Keeps.onlyIf
  carried v h t t0 t1 := by
    change (PartitionProduceResponse0.seen v t t0).RecordErrors = (PartitionProduceResponse0.seen v t t1).RecordErrors
    change v ≥ 8 at h
    simp only [PartitionProduceResponse0.seen, if_pos h]

/-- `t.ErrorMessage = x` -/
def PartitionProduceResponse0_with_ErrorMessage (t : PartitionProduceResponse0) (x : GoString) : PartitionProduceResponse0 := { t with ErrorMessage := x }
/-- `PartitionProduceResponse0.ErrorMessage` -/
def PartitionProduceResponse0.gateErrorMessage : Gate :=
  { M := PartitionProduceResponse0.type, L := PartitionProduceResponse0.layout, field := "ErrorMessage", α := GoString, present := fun v => v ≥ 8,
    get := fun t => PartitionProduceResponse0.ErrorMessage t, set := fun t x => PartitionProduceResponse0_with_ErrorMessage t x }
theorem PartitionProduceResponse0.gateErrorMessage_holds : PartitionProduceResponse0.gateErrorMessage.Holds where
  get_set _ _ := rfl
  encode v h t x := by
    change PartitionProduceResponse0.encode v (PartitionProduceResponse0_with_ErrorMessage t x) = PartitionProduceResponse0.encode v t
    change ¬(v ≥ 8) at h
    simp only [PartitionProduceResponse0.encode, PartitionProduceResponse0_with_ErrorMessage, onlyIf_neg h]
  size v h t x := by
    change PartitionProduceResponse0.size v (PartitionProduceResponse0_with_ErrorMessage t x) = PartitionProduceResponse0.size v t
    change ¬(v ≥ 8) at h
    simp only [PartitionProduceResponse0.size, PartitionProduceResponse0_with_ErrorMessage, onlyIf_neg h]
  decode v h := by
    change ¬(v ≥ 8) at h
    refine (?_ : Keeps (fun t : PartitionProduceResponse0 => t.ErrorMessage) (PartitionProduceResponse0.decode v))
    unfold PartitionProduceResponse0.decode
    repeat' first
      | exact Keeps.absent h
      | apply Keeps.andThen
      | exact Keeps.field fun _ _ => rfl
      | exact Keeps.fieldStructs fun _ _ => rfl
      | apply Keeps.onlyIf
  carried v h t t0 t1 := by
    change (PartitionProduceResponse0.seen v t t0).ErrorMessage = (PartitionProduceResponse0.seen v t t1).ErrorMessage
    change v ≥ 8 at h
    simp only [PartitionProduceResponse0.seen, if_pos h]

/-- `t.BatchIndex = x` -/
def BatchIndexAndErrorMessage0_with_BatchIndex (t : BatchIndexAndErrorMessage0) (x : Int32) : BatchIndexAndErrorMessage0 := { t with BatchIndex := x }
/-- `BatchIndexAndErrorMessage0.BatchIndex` -/
def BatchIndexAndErrorMessage0.gateBatchIndex : Gate :=
  { M := BatchIndexAndErrorMessage0.type, L := BatchIndexAndErrorMessage0.layout, field := "BatchIndex", α := Int32, present := fun v => v ≥ 8,
    get := fun t => BatchIndexAndErrorMessage0.BatchIndex t, set := fun t x => BatchIndexAndErrorMessage0_with_BatchIndex t x }
theorem BatchIndexAndErrorMessage0.gateBatchIndex_holds : BatchIndexAndErrorMessage0.gateBatchIndex.Holds where
  get_set _ _ := rfl
  encode v h t x := by
    change BatchIndexAndErrorMessage0.encode v (BatchIndexAndErrorMessage0_with_BatchIndex t x) = BatchIndexAndErrorMessage0.encode v t
    change ¬(v ≥ 8) at h
    simp only [BatchIndexAndErrorMessage0.encode, BatchIndexAndErrorMessage0_with_BatchIndex, onlyIf_neg h]
  size v h t x := by
    change BatchIndexAndErrorMessage0.size v (BatchIndexAndErrorMessage0_with_BatchIndex t x) = BatchIndexAndErrorMessage0.size v t
    change ¬(v ≥ 8) at h
    simp only [BatchIndexAndErrorMessage0.size, BatchIndexAndErrorMessage0_with_BatchIndex, onlyIf_neg h]
  decode v h := by
    change ¬(v ≥ 8) at h
    refine (?_ : Keeps (fun t : BatchIndexAndErrorMessage0 => t.BatchIndex) (BatchIndexAndErrorMessage0.decode v))
    unfold BatchIndexAndErrorMessage0.decode
    repeat' first
      | exact Keeps.absent h
      | apply Keeps.andThen
      | exact Keeps.field fun _ _ => rfl
      | exact Keeps.fieldStructs fun _ _ => rfl
      | apply Keeps.onlyIf
  carried v h t t0 t1 := by
    change (BatchIndexAndErrorMessage0.seen v t t0).BatchIndex = (BatchIndexAndErrorMessage0.seen v t t1).BatchIndex
    change v ≥ 8 at h
    simp only [BatchIndexAndErrorMessage0.seen, if_pos h]

/-- `t.BatchIndexErrorMessage = x` -/
def BatchIndexAndErrorMessage0_with_BatchIndexErrorMessage (t : BatchIndexAndErrorMessage0) (x : GoString) : BatchIndexAndErrorMessage0 := { t with BatchIndexErrorMessage := x }
/-- `BatchIndexAndErrorMessage0.BatchIndexErrorMessage` -/
def BatchIndexAndErrorMessage0.gateBatchIndexErrorMessage : Gate :=
  { M := BatchIndexAndErrorMessage0.type, L := BatchIndexAndErrorMessage0.layout, field := "BatchIndexErrorMessage", α := GoString, present := fun v => v ≥ 8,
    get := fun t => BatchIndexAndErrorMessage0.BatchIndexErrorMessage t, set := fun t x => BatchIndexAndErrorMessage0_with_BatchIndexErrorMessage t x }
theorem BatchIndexAndErrorMessage0.gateBatchIndexErrorMessage_holds : BatchIndexAndErrorMessage0.gateBatchIndexErrorMessage.Holds where
  get_set _ _ := rfl
  encode v h t x := by
    change BatchIndexAndErrorMessage0.encode v (BatchIndexAndErrorMessage0_with_BatchIndexErrorMessage t x) = BatchIndexAndErrorMessage0.encode v t
    change ¬(v ≥ 8) at h
    simp only [BatchIndexAndErrorMessage0.encode, BatchIndexAndErrorMessage0_with_BatchIndexErrorMessage, onlyIf_neg h]
  size v h t x := by
    change BatchIndexAndErrorMessage0.size v (BatchIndexAndErrorMessage0_with_BatchIndexErrorMessage t x) = BatchIndexAndErrorMessage0.size v t
    change ¬(v ≥ 8) at h
    simp only [BatchIndexAndErrorMessage0.size, BatchIndexAndErrorMessage0_with_BatchIndexErrorMessage, onlyIf_neg h]
  decode v h := by
    change ¬(v ≥ 8) at h
    refine (?_ : Keeps (fun t : BatchIndexAndErrorMessage0 => t.BatchIndexErrorMessage) (BatchIndexAndErrorMessage0.decode v))
    unfold BatchIndexAndErrorMessage0.decode
    repeat' first
      | exact Keeps.absent h
      | apply Keeps.andThen
      | exact Keeps.field fun _ _ => rfl
      | exact Keeps.fieldStructs fun _ _ => rfl
      | apply Keeps.onlyIf
  carried v h t t0 t1 := by
    change (BatchIndexAndErrorMessage0.seen v t t0).BatchIndexErrorMessage = (BatchIndexAndErrorMessage0.seen v t t1).BatchIndexErrorMessage
    change v ≥ 8 at h
    simp only [BatchIndexAndErrorMessage0.seen, if_pos h]

/-- The version-dependent fields of the Produce messages. -/
def gatesProduce : List Gate :=
  [ProduceRequest.gateTransactionalId,
   ProduceResponse.gateThrottleTimeMs,
   PartitionProduceResponse0.gateLogAppendTimeMs,
   PartitionProduceResponse0.gateLogStartOffset,
   PartitionProduceResponse0.gateRecordErrors,
   PartitionProduceResponse0.gateErrorMessage,
   BatchIndexAndErrorMessage0.gateBatchIndex,
   BatchIndexAndErrorMessage0.gateBatchIndexErrorMessage]

theorem gatesProduce_hold : ∀ g ∈ gatesProduce, g.Holds := by
  unfold gatesProduce
  simp only [List.forall_mem_cons]
  exact ⟨ProduceRequest.gateTransactionalId_holds,
    ProduceResponse.gateThrottleTimeMs_holds,
    PartitionProduceResponse0.gateLogAppendTimeMs_holds,
    PartitionProduceResponse0.gateLogStartOffset_holds,
    PartitionProduceResponse0.gateRecordErrors_holds,
    PartitionProduceResponse0.gateErrorMessage_holds,
    BatchIndexAndErrorMessage0.gateBatchIndex_holds,
    BatchIndexAndErrorMessage0.gateBatchIndexErrorMessage_holds,
    fun _ h => absurd h (by simp)⟩

end Kafka.Msg
