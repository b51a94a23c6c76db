import Verif.Message.Reuse
import Verif.Gen.Spec.IncrementalAlterConfigs
/-!
Generated by tools/gen_messages.py: decoding into IncrementalAlterConfigs messages used before.
-/
set_option linter.unusedSimpArgs false
set_option linter.unusedVariables false
namespace Kafka.Msg

/-- What `t0` becomes where a new `AlterableConfig44` becomes `y`. -/
def AlterableConfig44.over (_version : Int16) (y _t0 : AlterableConfig44) : AlterableConfig44 :=
  { Name := y.Name,
    ConfigOperation := y.ConfigOperation,
    Value := y.Value }

/-- An array of structures is nil. -/
def AlterableConfig44.Nulls (_version : Int16) (_y : AlterableConfig44) : Prop :=
  False

/-- `AlterableConfig44` in use again. -/
def AlterableConfig44.reuse : Reuse AlterableConfig44.type := { over := AlterableConfig44.over, Nulls := AlterableConfig44.Nulls }

/-- The same after the first `k` statements of `Decode`. -/
def AlterableConfig44.overAt (_version : Int16) (k : Nat) (y t0 : AlterableConfig44) : AlterableConfig44 :=
  { Name := upto k 0 (y.Name) t0.Name,
    ConfigOperation := upto k 1 (y.ConfigOperation) t0.ConfigOperation,
    Value := upto k 2 (y.Value) t0.Value }

theorem AlterableConfig44.sim (v : Int16) (t0 : AlterableConfig44) : Sim (AlterableConfig44.overAt v 0 · t0) (AlterableConfig44.overAt v 3 · t0) (AlterableConfig44.decode v) :=
  ((.field fun _ _ => rfl) : Sim (AlterableConfig44.overAt v 0 · t0) (AlterableConfig44.overAt v 1 · t0) _)
    |>.andThen ((.field fun _ _ => rfl) : Sim (AlterableConfig44.overAt v 1 · t0) (AlterableConfig44.overAt v 2 · t0) _)
    |>.andThen ((.field fun _ _ => rfl) : Sim (AlterableConfig44.overAt v 2 · t0) (AlterableConfig44.overAt v 3 · t0) _)
theorem AlterableConfig44.reusable : AlterableConfig44.reuse.Holds AlterableConfig44.layout where
  decode v t0 d := by
    have h := AlterableConfig44.sim v t0 {} d
    have e : AlterableConfig44.overAt v 0 {} t0 = t0 := by first | rfl | (simp only [AlterableConfig44.overAt, upto_zero, Option.none_or, ite_self] <;> rfl)
    simp only [e] at h
    exact h
  same v y t0 _h := (app_congr (app_congr rfl rfl) rfl)
  stale _ _ h := h.elim

/-- What `t0` becomes where a new `AlterConfigsResource44` becomes `y`. -/
def AlterConfigsResource44.over (_version : Int16) (y t0 : AlterConfigsResource44) : AlterConfigsResource44 :=
  { ResourceType := y.ResourceType,
    ResourceName := y.ResourceName,
    Configs := y.Configs.or t0.Configs }

/-- An array of structures is nil. -/
def AlterConfigsResource44.Nulls (_version : Int16) (y : AlterConfigsResource44) : Prop :=
  y.Configs = none

/-- `AlterConfigsResource44` in use again. -/
def AlterConfigsResource44.reuse : Reuse AlterConfigsResource44.type := { over := AlterConfigsResource44.over, Nulls := AlterConfigsResource44.Nulls }

/-- The same after the first `k` statements of `Decode`. -/
def AlterConfigsResource44.overAt (_version : Int16) (k : Nat) (y t0 : AlterConfigsResource44) : AlterConfigsResource44 :=
  { ResourceType := upto k 0 (y.ResourceType) t0.ResourceType,
    ResourceName := upto k 1 (y.ResourceName) t0.ResourceName,
    Configs := y.Configs.or t0.Configs }

theorem AlterConfigsResource44.sim (v : Int16) (t0 : AlterConfigsResource44) : Sim (AlterConfigsResource44.overAt v 0 · t0) (AlterConfigsResource44.overAt v 3 · t0) (AlterConfigsResource44.decode v) :=
  ((.field fun _ _ => rfl) : Sim (AlterConfigsResource44.overAt v 0 · t0) (AlterConfigsResource44.overAt v 1 · t0) _)
    |>.andThen ((.field fun _ _ => rfl) : Sim (AlterConfigsResource44.overAt v 1 · t0) (AlterConfigsResource44.overAt v 2 · t0) _)
    |>.andThen ((.structs (fun _ _ => rfl) fun _ => rfl) : Sim (AlterConfigsResource44.overAt v 2 · t0) (AlterConfigsResource44.overAt v 3 · t0) _)
theorem AlterConfigsResource44.reusable : AlterConfigsResource44.reuse.Holds AlterConfigsResource44.layout where
  decode v t0 d := by
    have h := AlterConfigsResource44.sim v t0 {} d
    have e : AlterConfigsResource44.overAt v 0 {} t0 = t0 := by first | rfl | (simp only [AlterConfigsResource44.overAt, upto_zero, Option.none_or, ite_self] <;> rfl)
    simp only [e] at h
    exact h
  same v y t0 h := (app_congr (app_congr rfl rfl) (same_or fun hn => h (hn)))
  stale v y h := by
    obtain h := h
    · exact ⟨({ Configs := some [{}] } : AlterConfigsResource44), (app_ne_right (app_congr rfl rfl) (stale_or h))⟩

/-- What `t0` becomes where a new `IncrementalAlterConfigsRequest` becomes `y`. -/
def IncrementalAlterConfigsRequest.over (_version : Int16) (y t0 : IncrementalAlterConfigsRequest) : IncrementalAlterConfigsRequest :=
  { Resources := y.Resources.or t0.Resources,
    ValidateOnly := y.ValidateOnly }

/-- An array of structures is nil. -/
def IncrementalAlterConfigsRequest.Nulls (_version : Int16) (y : IncrementalAlterConfigsRequest) : Prop :=
  y.Resources = none

/-- `IncrementalAlterConfigsRequest` in use again. -/
def IncrementalAlterConfigsRequest.reuse : Reuse IncrementalAlterConfigsRequest.type := { over := IncrementalAlterConfigsRequest.over, Nulls := IncrementalAlterConfigsRequest.Nulls }

/-- The same after the first `k` statements of `Decode`. -/
def IncrementalAlterConfigsRequest.overAt (_version : Int16) (k : Nat) (y t0 : IncrementalAlterConfigsRequest) : IncrementalAlterConfigsRequest :=
  { Resources := y.Resources.or t0.Resources,
    ValidateOnly := upto k 1 (y.ValidateOnly) t0.ValidateOnly }

theorem IncrementalAlterConfigsRequest.sim (v : Int16) (t0 : IncrementalAlterConfigsRequest) : Sim (IncrementalAlterConfigsRequest.overAt v 0 · t0) (IncrementalAlterConfigsRequest.overAt v 2 · t0) (IncrementalAlterConfigsRequest.decode v) :=
  ((.structs (fun _ _ => rfl) fun _ => rfl) : Sim (IncrementalAlterConfigsRequest.overAt v 0 · t0) (IncrementalAlterConfigsRequest.overAt v 1 · t0) _)
    |>.andThen ((.field fun _ _ => rfl) : Sim (IncrementalAlterConfigsRequest.overAt v 1 · t0) (IncrementalAlterConfigsRequest.overAt v 2 · t0) _)
theorem IncrementalAlterConfigsRequest.reusable : IncrementalAlterConfigsRequest.reuse.Holds IncrementalAlterConfigsRequest.layout where
  decode v t0 d := by
    have h := IncrementalAlterConfigsRequest.sim v t0 {} d
    have e : IncrementalAlterConfigsRequest.overAt v 0 {} t0 = t0 := by first | rfl | (simp only [IncrementalAlterConfigsRequest.overAt, upto_zero, Option.none_or, ite_self] <;> rfl)
    simp only [e] at h
    exact h
  same v y t0 h := (app_congr (same_or fun hn => h (hn)) rfl)
  stale v y h := by
    obtain h := h
    · exact ⟨({ Resources := some [{}] } : IncrementalAlterConfigsRequest), (app_ne_left (stale_or h) rfl)⟩

/-- What `t0` becomes where a new `AlterConfigsResourceResponse44` becomes `y`. -/
def AlterConfigsResourceResponse44.over (_version : Int16) (y _t0 : AlterConfigsResourceResponse44) : AlterConfigsResourceResponse44 :=
  { ErrorCode := y.ErrorCode,
    ErrorMessage := y.ErrorMessage,
    ResourceType := y.ResourceType,
    ResourceName := y.ResourceName }

/-- An array of structures is nil. -/
def AlterConfigsResourceResponse44.Nulls (_version : Int16) (_y : AlterConfigsResourceResponse44) : Prop :=
  False

/-- `AlterConfigsResourceResponse44` in use again. -/
def AlterConfigsResourceResponse44.reuse : Reuse AlterConfigsResourceResponse44.type := { over := AlterConfigsResourceResponse44.over, Nulls := AlterConfigsResourceResponse44.Nulls }

/-- The same after the first `k` statements of `Decode`. -/
def AlterConfigsResourceResponse44.overAt (_version : Int16) (k : Nat) (y t0 : AlterConfigsResourceResponse44) : AlterConfigsResourceResponse44 :=
  { ErrorCode := upto k 0 (y.ErrorCode) t0.ErrorCode,
    ErrorMessage := upto k 1 (y.ErrorMessage) t0.ErrorMessage,
    ResourceType := upto k 2 (y.ResourceType) t0.ResourceType,
    ResourceName := upto k 3 (y.ResourceName) t0.ResourceName }

theorem AlterConfigsResourceResponse44.sim (v : Int16) (t0 : AlterConfigsResourceResponse44) : Sim (AlterConfigsResourceResponse44.overAt v 0 · t0) (AlterConfigsResourceResponse44.overAt v 4 · t0) (AlterConfigsResourceResponse44.decode v) :=
  ((.field fun _ _ => rfl) : Sim (AlterConfigsResourceResponse44.overAt v 0 · t0) (AlterConfigsResourceResponse44.overAt v 1 · t0) _)
    |>.andThen ((.field fun _ _ => rfl) : Sim (AlterConfigsResourceResponse44.overAt v 1 · t0) (AlterConfigsResourceResponse44.overAt v 2 · t0) _)
    |>.andThen ((.field fun _ _ => rfl) : Sim (AlterConfigsResourceResponse44.overAt v 2 · t0) (AlterConfigsResourceResponse44.overAt v 3 · t0) _)
    |>.andThen ((.field fun _ _ => rfl) : Sim (AlterConfigsResourceResponse44.overAt v 3 · t0) (AlterConfigsResourceResponse44.overAt v 4 · t0) _)
theorem AlterConfigsResourceResponse44.reusable : AlterConfigsResourceResponse44.reuse.Holds AlterConfigsResourceResponse44.layout where
  decode v t0 d := by
    have h := AlterConfigsResourceResponse44.sim v t0 {} d
    have e : AlterConfigsResourceResponse44.overAt v 0 {} t0 = t0 := by first | rfl | (simp only [AlterConfigsResourceResponse44.overAt, upto_zero, Option.none_or, ite_self] <;> rfl)
    simp only [e] at h
    exact h
  same v y t0 _h := (app_congr (app_congr (app_congr rfl rfl) rfl) rfl)
  stale _ _ h := h.elim

/-- What `t0` becomes where a new `IncrementalAlterConfigsResponse` becomes `y`. -/
def IncrementalAlterConfigsResponse.over (_version : Int16) (y t0 : IncrementalAlterConfigsResponse) : IncrementalAlterConfigsResponse :=
  { ThrottleTimeMs := y.ThrottleTimeMs,
    Responses := y.Responses.or t0.Responses }

/-- An array of structures is nil. -/
def IncrementalAlterConfigsResponse.Nulls (_version : Int16) (y : IncrementalAlterConfigsResponse) : Prop :=
  y.Responses = none

/-- `IncrementalAlterConfigsResponse` in use again. -/
def IncrementalAlterConfigsResponse.reuse : Reuse IncrementalAlterConfigsResponse.type := { over := IncrementalAlterConfigsResponse.over, Nulls := IncrementalAlterConfigsResponse.Nulls }

/-- The same after the first `k` statements of `Decode`. -/
def IncrementalAlterConfigsResponse.overAt (_version : Int16) (k : Nat) (y t0 : IncrementalAlterConfigsResponse) : IncrementalAlterConfigsResponse :=
  { ThrottleTimeMs := upto k 0 (y.ThrottleTimeMs) t0.ThrottleTimeMs,
    Responses := y.Responses.or t0.Responses }

theorem IncrementalAlterConfigsResponse.sim (v : Int16) (t0 : IncrementalAlterConfigsResponse) : Sim (IncrementalAlterConfigsResponse.overAt v 0 · t0) (IncrementalAlterConfigsResponse.overAt v 2 · t0) (IncrementalAlterConfigsResponse.decode v) :=
  ((.field fun _ _ => rfl) : Sim (IncrementalAlterConfigsResponse.overAt v 0 · t0) (IncrementalAlterConfigsResponse.overAt v 1 · t0) _)
    |>.andThen ((.structs (fun _ _ => rfl) fun _ => rfl) : Sim (IncrementalAlterConfigsResponse.overAt v 1 · t0) (IncrementalAlterConfigsResponse.overAt v 2 · t0) _)
theorem IncrementalAlterConfigsResponse.reusable : IncrementalAlterConfigsResponse.reuse.Holds IncrementalAlterConfigsResponse.layout where
  decode v t0 d := by
    have h := IncrementalAlterConfigsResponse.sim v t0 {} d
    have e : IncrementalAlterConfigsResponse.overAt v 0 {} t0 = t0 := by first | rfl | (simp only [IncrementalAlterConfigsResponse.overAt, upto_zero, Option.none_or, ite_self] <;> rfl)
    simp only [e] at h
    exact h
  same v y t0 h := (app_congr rfl (same_or fun hn => h (hn)))
  stale v y h := by
    obtain h := h
    · exact ⟨({ Responses := some [{}] } : IncrementalAlterConfigsResponse), (app_ne_right rfl (stale_or h))⟩

/-- The structures of the IncrementalAlterConfigs messages. -/
def reuseIncrementalAlterConfigs : List (Σ (M : MsgType) (_ : Layout M), Reuse M) :=
  [⟨IncrementalAlterConfigsRequest.type, IncrementalAlterConfigsRequest.layout, IncrementalAlterConfigsRequest.reuse⟩,
   ⟨AlterConfigsResource44.type, AlterConfigsResource44.layout, AlterConfigsResource44.reuse⟩,
   ⟨AlterableConfig44.type, AlterableConfig44.layout, AlterableConfig44.reuse⟩,
   ⟨IncrementalAlterConfigsResponse.type, IncrementalAlterConfigsResponse.layout, IncrementalAlterConfigsResponse.reuse⟩,
   ⟨AlterConfigsResourceResponse44.type, AlterConfigsResourceResponse44.layout, AlterConfigsResourceResponse44.reuse⟩]
theorem reuseIncrementalAlterConfigs_holds : ∀ p ∈ reuseIncrementalAlterConfigs, p.2.2.Holds p.2.1 := by
  unfold reuseIncrementalAlterConfigs
  simp only [List.forall_mem_cons]
  exact ⟨IncrementalAlterConfigsRequest.reusable, AlterConfigsResource44.reusable, AlterableConfig44.reusable, IncrementalAlterConfigsResponse.reusable, AlterConfigsResourceResponse44.reusable, fun _ h => absurd h (by simp)⟩

end Kafka.Msg
