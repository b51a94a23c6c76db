import Verif.Message.Rewrites
import Verif.Gen.Kept.Produce
import Verif.Gen.All
/-!
Generated by tools/gen_messages.py: encoding Produce messages that were decoded.
-/
namespace Kafka.Msg

theorem PartitionProduceData0.rewrites (version : Int16) : Rewrites (PartitionProduceData0.decode version {}) (PartitionProduceData0.wire version) (PartitionProduceData0.Fits version) :=
  ((.field (get := fun (t : PartitionProduceData0) => t.PartitionIndex) (set := fun (t : PartitionProduceData0) x => { t with PartitionIndex := x }) .int32 (fun _ => rfl) (fun _ => rfl) (fun _ _ => rfl) (fun _ _ => rfl) (fun _ _ => rfl) : RewriteStep _ (PartitionProduceData0.first 0) (PartitionProduceData0.first 1) _ _)
    |>.andThen (.field (get := fun (t : PartitionProduceData0) => t.Records) (set := fun (t : PartitionProduceData0) x => { t with Records := x }) .bytes (fun _ => rfl) (fun _ => rfl) (fun _ _ => rfl) (fun _ _ => rfl) (fun _ _ => rfl) : RewriteStep _ (PartitionProduceData0.first 1) (PartitionProduceData0.first 2) _ _)).whole {} rfl (fun _ => rfl) (fun _ h => ⟨h.2⟩)

theorem TopicProduceData0.rewrites (version : Int16) : Rewrites (TopicProduceData0.decode version {}) (TopicProduceData0.wire version) (TopicProduceData0.Fits version) :=
  ((.field (get := fun (t : TopicProduceData0) => t.Name) (set := fun (t : TopicProduceData0) x => { t with Name := x }) .string (fun _ => rfl) (fun _ => rfl) (fun _ _ => rfl) (fun _ _ => rfl) (fun _ _ => rfl) : RewriteStep _ (TopicProduceData0.first 0) (TopicProduceData0.first 1) _ _)
    |>.andThen (.structs (get := fun (t : TopicProduceData0) => t.Partitions) (set := fun (t : TopicProduceData0) x => { t with Partitions := x }) (PartitionProduceData0.rewrites version) (fun _ => rfl) (fun _ => rfl) (fun _ => rfl) (fun _ _ => rfl) (fun _ _ => rfl) (fun _ _ => rfl) : RewriteStep _ (TopicProduceData0.first 1) (TopicProduceData0.first 2) _ _)).whole {} rfl (fun _ => rfl) (fun _ h => ⟨h.1, h.2⟩)

theorem ProduceRequest.rewrites (version : Int16) : Rewrites (ProduceRequest.decode version {}) (ProduceRequest.wire version) (ProduceRequest.Fits version) :=
  ((.onlyIf (g := version ≥ 3) (.field (get := fun (t : ProduceRequest) => t.TransactionalId) (set := fun (t : ProduceRequest) x => { t with TransactionalId := x }) .string (fun _ => rfl) (fun _ => rfl) (fun _ _ => rfl) (fun _ _ => rfl) (fun _ _ => rfl)) (fun _ => rfl) : RewriteStep _ (ProduceRequest.first 0) (ProduceRequest.first 1) _ _)
    |>.andThen (.field (get := fun (t : ProduceRequest) => t.Acks) (set := fun (t : ProduceRequest) x => { t with Acks := x }) .int16 (fun _ => rfl) (fun _ => rfl) (fun _ _ => rfl) (fun _ _ => rfl) (fun _ _ => rfl) : RewriteStep _ (ProduceRequest.first 1) (ProduceRequest.first 2) _ _)
    |>.andThen (.field (get := fun (t : ProduceRequest) => t.TimeoutMs) (set := fun (t : ProduceRequest) x => { t with TimeoutMs := x }) .int32 (fun _ => rfl) (fun _ => rfl) (fun _ _ => rfl) (fun _ _ => rfl) (fun _ _ => rfl) : RewriteStep _ (ProduceRequest.first 2) (ProduceRequest.first 3) _ _)
    |>.andThen (.structs (get := fun (t : ProduceRequest) => t.Topics) (set := fun (t : ProduceRequest) x => { t with Topics := x }) (TopicProduceData0.rewrites version) (fun _ => rfl) (fun _ => rfl) (fun _ => rfl) (fun _ _ => rfl) (fun _ _ => rfl) (fun _ _ => rfl) : RewriteStep _ (ProduceRequest.first 3) (ProduceRequest.first 4) _ _)).whole {} rfl (fun _ => rfl) (fun _ h => ⟨h.1.1.1, h.2⟩)

theorem BatchIndexAndErrorMessage0.rewrites (version : Int16) : Rewrites (BatchIndexAndErrorMessage0.decode version {}) (BatchIndexAndErrorMessage0.wire version) (BatchIndexAndErrorMessage0.Fits version) :=
  ((.onlyIf (g := version ≥ 8) (.field (get := fun (t : BatchIndexAndErrorMessage0) => t.BatchIndex) (set := fun (t : BatchIndexAndErrorMessage0) x => { t with BatchIndex := x }) .int32 (fun _ => rfl) (fun _ => rfl) (fun _ _ => rfl) (fun _ _ => rfl) (fun _ _ => rfl)) (fun _ => rfl) : RewriteStep _ (BatchIndexAndErrorMessage0.first 0) (BatchIndexAndErrorMessage0.first 1) _ _)
    |>.andThen (.onlyIf (g := version ≥ 8) (.field (get := fun (t : BatchIndexAndErrorMessage0) => t.BatchIndexErrorMessage) (set := fun (t : BatchIndexAndErrorMessage0) x => { t with BatchIndexErrorMessage := x }) .string (fun _ => rfl) (fun _ => rfl) (fun _ _ => rfl) (fun _ _ => rfl) (fun _ _ => rfl)) (fun _ => rfl) : RewriteStep _ (BatchIndexAndErrorMessage0.first 1) (BatchIndexAndErrorMessage0.first 2) _ _)).whole {} rfl (fun _ => rfl) (fun _ h => ⟨h.2⟩)

theorem PartitionProduceResponse0.rewrites (version : Int16) : Rewrites (PartitionProduceResponse0.decode version {}) (PartitionProduceResponse0.wire version) (PartitionProduceResponse0.Fits version) :=
  ((.field (get := fun (t : PartitionProduceResponse0) => t.PartitionIndex) (set := fun (t : PartitionProduceResponse0) x => { t with PartitionIndex := x }) .int32 (fun _ => rfl) (fun _ => rfl) (fun _ _ => rfl) (fun _ _ => rfl) (fun _ _ => rfl) : RewriteStep _ (PartitionProduceResponse0.first 0) (PartitionProduceResponse0.first 1) _ _)
    |>.andThen (.field (get := fun (t : PartitionProduceResponse0) => t.ErrorCode) (set := fun (t : PartitionProduceResponse0) x => { t with ErrorCode := x }) .int16 (fun _ => rfl) (fun _ => rfl) (fun _ _ => rfl) (fun _ _ => rfl) (fun _ _ => rfl) : RewriteStep _ (PartitionProduceResponse0.first 1) (PartitionProduceResponse0.first 2) _ _)
    |>.andThen (.field (get := fun (t : PartitionProduceResponse0) => t.BaseOffset) (set := fun (t : PartitionProduceResponse0) x => { t with BaseOffset := x }) .int64 (fun _ => rfl) (fun _ => rfl) (fun _ _ => rfl) (fun _ _ => rfl) (fun _ _ => rfl) : RewriteStep _ (PartitionProduceResponse0.first 2) (PartitionProduceResponse0.first 3) _ _)
    |>.andThen (.onlyIf (g := version ≥ 2) (.field (get := fun (t : PartitionProduceResponse0) => t.LogAppendTimeMs) (set := fun (t : PartitionProduceResponse0) x => { t with LogAppendTimeMs := x }) .int64 (fun _ => rfl) (fun _ => rfl) (fun _ _ => rfl) (fun _ _ => rfl) (fun _ _ => rfl)) (fun _ => rfl) : RewriteStep _ (PartitionProduceResponse0.first 3) (PartitionProduceResponse0.first 4) _ _)
    |>.andThen (.onlyIf (g := version ≥ 5) (.field (get := fun (t : PartitionProduceResponse0) => t.LogStartOffset) (set := fun (t : PartitionProduceResponse0) x => { t with LogStartOffset := x }) .int64 (fun _ => rfl) (fun _ => rfl) (fun _ _ => rfl) (fun _ _ => rfl) (fun _ _ => rfl)) (fun _ => rfl) : RewriteStep _ (PartitionProduceResponse0.first 4) (PartitionProduceResponse0.first 5) _ _)
    |>.andThen (.onlyIf (g := version ≥ 8) (.structs (get := fun (t : PartitionProduceResponse0) => t.RecordErrors) (set := fun (t : PartitionProduceResponse0) x => { t with RecordErrors := x }) (BatchIndexAndErrorMessage0.rewrites version) (fun _ => rfl) (fun _ => rfl) (fun _ => rfl) (fun _ _ => rfl) (fun _ _ => rfl) (fun _ _ => rfl)) (fun _ => rfl) : RewriteStep _ (PartitionProduceResponse0.first 5) (PartitionProduceResponse0.first 6) _ _)
    |>.andThen (.onlyIf (g := version ≥ 8) (.field (get := fun (t : PartitionProduceResponse0) => t.ErrorMessage) (set := fun (t : PartitionProduceResponse0) x => { t with ErrorMessage := x }) .string (fun _ => rfl) (fun _ => rfl) (fun _ _ => rfl) (fun _ _ => rfl) (fun _ _ => rfl)) (fun _ => rfl) : RewriteStep _ (PartitionProduceResponse0.first 6) (PartitionProduceResponse0.first 7) _ _)).whole {} rfl (fun _ => rfl) (fun _ h => ⟨h.1.2, h.2⟩)

theorem TopicProduceResponse0.rewrites (version : Int16) : Rewrites (TopicProduceResponse0.decode version {}) (TopicProduceResponse0.wire version) (TopicProduceResponse0.Fits version) :=
  ((.field (get := fun (t : TopicProduceResponse0) => t.Name) (set := fun (t : TopicProduceResponse0) x => { t with Name := x }) .string (fun _ => rfl) (fun _ => rfl) (fun _ _ => rfl) (fun _ _ => rfl) (fun _ _ => rfl) : RewriteStep _ (TopicProduceResponse0.first 0) (TopicProduceResponse0.first 1) _ _)
    |>.andThen (.structs (get := fun (t : TopicProduceResponse0) => t.Partitions) (set := fun (t : TopicProduceResponse0) x => { t with Partitions := x }) (PartitionProduceResponse0.rewrites version) (fun _ => rfl) (fun _ => rfl) (fun _ => rfl) (fun _ _ => rfl) (fun _ _ => rfl) (fun _ _ => rfl) : RewriteStep _ (TopicProduceResponse0.first 1) (TopicProduceResponse0.first 2) _ _)).whole {} rfl (fun _ => rfl) (fun _ h => ⟨h.1, h.2⟩)

theorem ProduceResponse.rewrites (version : Int16) : Rewrites (ProduceResponse.decode version {}) (ProduceResponse.wire version) (ProduceResponse.Fits version) :=
  ((.structs (get := fun (t : ProduceResponse) => t.Responses) (set := fun (t : ProduceResponse) x => { t with Responses := x }) (TopicProduceResponse0.rewrites version) (fun _ => rfl) (fun _ => rfl) (fun _ => rfl) (fun _ _ => rfl) (fun _ _ => rfl) (fun _ _ => rfl) : RewriteStep _ (ProduceResponse.first 0) (ProduceResponse.first 1) _ _)
    |>.andThen (.onlyIf (g := version ≥ 1) (.field (get := fun (t : ProduceResponse) => t.ThrottleTimeMs) (set := fun (t : ProduceResponse) x => { t with ThrottleTimeMs := x }) .int32 (fun _ => rfl) (fun _ => rfl) (fun _ _ => rfl) (fun _ _ => rfl) (fun _ _ => rfl)) (fun _ => rfl) : RewriteStep _ (ProduceResponse.first 1) (ProduceResponse.first 2) _ _)).whole {} rfl (fun _ => rfl) (fun _ h => ⟨h.1⟩)

theorem rewritesProduce : ∀ p ∈ typesProduce, ∀ v, Rewrites (p.1.decode v p.1.zero) (p.2.wire v) (p.2.Fits v) := by
  unfold typesProduce
  simp only [List.forall_mem_cons]
  exact ⟨ProduceRequest.rewrites, TopicProduceData0.rewrites, PartitionProduceData0.rewrites, ProduceResponse.rewrites, TopicProduceResponse0.rewrites, PartitionProduceResponse0.rewrites, BatchIndexAndErrorMessage0.rewrites, fun _ h => absurd h (by simp)⟩

end Kafka.Msg
