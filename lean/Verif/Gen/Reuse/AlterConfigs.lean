import Verif.Message.Reuse
import Verif.Gen.Spec.AlterConfigs
/-!
Generated by tools/gen_messages.py: decoding into AlterConfigs messages used before.
-/
set_option linter.unusedSimpArgs false
set_option linter.unusedVariables false
namespace Kafka.Msg

/-- What `t0` becomes where a new `AlterableConfig33` becomes `y`. -/
def AlterableConfig33.over (_version : Int16) (y _t0 : AlterableConfig33) : AlterableConfig33 :=
  { Name := y.Name,
    Value := y.Value }

/-- An array of structures is nil. -/
def AlterableConfig33.Nulls (_version : Int16) (_y : AlterableConfig33) : Prop :=
  False

/-- `AlterableConfig33` in use again. -/
def AlterableConfig33.reuse : Reuse AlterableConfig33.type := { over := AlterableConfig33.over, Nulls := AlterableConfig33.Nulls }

/-- The same after the first `k` statements of `Decode`. -/
def AlterableConfig33.overAt (_version : Int16) (k : Nat) (y t0 : AlterableConfig33) : AlterableConfig33 :=
  { Name := upto k 0 (y.Name) t0.Name,
    Value := upto k 1 (y.Value) t0.Value }

theorem AlterableConfig33.sim (v : Int16) (t0 : AlterableConfig33) : Sim (AlterableConfig33.overAt v 0 · t0) (AlterableConfig33.overAt v 2 · t0) (AlterableConfig33.decode v) :=
  ((.field fun _ _ => rfl) : Sim (AlterableConfig33.overAt v 0 · t0) (AlterableConfig33.overAt v 1 · t0) _)
    |>.andThen ((.field fun _ _ => rfl) : Sim (AlterableConfig33.overAt v 1 · t0) (AlterableConfig33.overAt v 2 · t0) _)
theorem AlterableConfig33.reusable : AlterableConfig33.reuse.Holds AlterableConfig33.layout where
  decode v t0 d := by
    have h := AlterableConfig33.sim v t0 {} d
    have e : AlterableConfig33.overAt v 0 {} t0 = t0 := by first | rfl | (simp only [AlterableConfig33.overAt, upto_zero, Option.none_or, ite_self] <;> rfl)
    simp only [e] at h
    exact h
  same v y t0 _h := (app_congr rfl rfl)
  stale _ _ h := h.elim

/-- What `t0` becomes where a new `AlterConfigsResource33` becomes `y`. -/
def AlterConfigsResource33.over (_version : Int16) (y t0 : AlterConfigsResource33) : AlterConfigsResource33 :=
  { ResourceType := y.ResourceType,
    ResourceName := y.ResourceName,
    Configs := y.Configs.or t0.Configs }

/-- An array of structures is nil. -/
def AlterConfigsResource33.Nulls (_version : Int16) (y : AlterConfigsResource33) : Prop :=
  y.Configs = none

/-- `AlterConfigsResource33` in use again. -/
def AlterConfigsResource33.reuse : Reuse AlterConfigsResource33.type := { over := AlterConfigsResource33.over, Nulls := AlterConfigsResource33.Nulls }

/-- The same after the first `k` statements of `Decode`. -/
def AlterConfigsResource33.overAt (_version : Int16) (k : Nat) (y t0 : AlterConfigsResource33) : AlterConfigsResource33 :=
  { ResourceType := upto k 0 (y.ResourceType) t0.ResourceType,
    ResourceName := upto k 1 (y.ResourceName) t0.ResourceName,
    Configs := y.Configs.or t0.Configs }

theorem AlterConfigsResource33.sim (v : Int16) (t0 : AlterConfigsResource33) : Sim (AlterConfigsResource33.overAt v 0 · t0) (AlterConfigsResource33.overAt v 3 · t0) (AlterConfigsResource33.decode v) :=
  ((.field fun _ _ => rfl) : Sim (AlterConfigsResource33.overAt v 0 · t0) (AlterConfigsResource33.overAt v 1 · t0) _)
    |>.andThen ((.field fun _ _ => rfl) : Sim (AlterConfigsResource33.overAt v 1 · t0) (AlterConfigsResource33.overAt v 2 · t0) _)
    |>.andThen ((.structs (fun _ _ => rfl) fun _ => rfl) : Sim (AlterConfigsResource33.overAt v 2 · t0) (AlterConfigsResource33.overAt v 3 · t0) _)
theorem AlterConfigsResource33.reusable : AlterConfigsResource33.reuse.Holds AlterConfigsResource33.layout where
  decode v t0 d := by
    have h := AlterConfigsResource33.sim v t0 {} d
    have e : AlterConfigsResource33.overAt v 0 {} t0 = t0 := by first | rfl | (simp only [AlterConfigsResource33.overAt, upto_zero, Option.none_or, ite_self] <;> rfl)
    simp only [e] at h
    exact h
  same v y t0 h := (app_congr (app_congr rfl rfl) (same_or fun hn => h (hn)))
  stale v y h := by
    obtain h := h
    · exact ⟨({ Configs := some [{}] } : AlterConfigsResource33), (app_ne_right (app_congr rfl rfl) (stale_or h))⟩

/-- What `t0` becomes where a new `AlterConfigsRequest` becomes `y`. -/
def AlterConfigsRequest.over (_version : Int16) (y t0 : AlterConfigsRequest) : AlterConfigsRequest :=
  { Resources := y.Resources.or t0.Resources,
    ValidateOnly := y.ValidateOnly }

/-- An array of structures is nil. -/
def AlterConfigsRequest.Nulls (_version : Int16) (y : AlterConfigsRequest) : Prop :=
  y.Resources = none

/-- `AlterConfigsRequest` in use again. -/
def AlterConfigsRequest.reuse : Reuse AlterConfigsRequest.type := { over := AlterConfigsRequest.over, Nulls := AlterConfigsRequest.Nulls }

/-- The same after the first `k` statements of `Decode`. -/
def AlterConfigsRequest.overAt (_version : Int16) (k : Nat) (y t0 : AlterConfigsRequest) : AlterConfigsRequest :=
  { Resources := y.Resources.or t0.Resources,
    ValidateOnly := upto k 1 (y.ValidateOnly) t0.ValidateOnly }

theorem AlterConfigsRequest.sim (v : Int16) (t0 : AlterConfigsRequest) : Sim (AlterConfigsRequest.overAt v 0 · t0) (AlterConfigsRequest.overAt v 2 · t0) (AlterConfigsRequest.decode v) :=
  ((.structs (fun _ _ => rfl) fun _ => rfl) : Sim (AlterConfigsRequest.overAt v 0 · t0) (AlterConfigsRequest.overAt v 1 · t0) _)
    |>.andThen ((.field fun _ _ => rfl) : Sim (AlterConfigsRequest.overAt v 1 · t0) (AlterConfigsRequest.overAt v 2 · t0) _)
theorem AlterConfigsRequest.reusable : AlterConfigsRequest.reuse.Holds AlterConfigsRequest.layout where
  decode v t0 d := by
    have h := AlterConfigsRequest.sim v t0 {} d
    have e : AlterConfigsRequest.overAt v 0 {} t0 = t0 := by first | rfl | (simp only [AlterConfigsRequest.overAt, upto_zero, Option.none_or, ite_self] <;> rfl)
    simp only [e] at h
    exact h
  same v y t0 h := (app_congr (same_or fun hn => h (hn)) rfl)
  stale v y h := by
    obtain h := h
    · exact ⟨({ Resources := some [{}] } : AlterConfigsRequest), (app_ne_left (stale_or h) rfl)⟩

/-- What `t0` becomes where a new `AlterConfigsResourceResponse33` becomes `y`. -/
def AlterConfigsResourceResponse33.over (_version : Int16) (y _t0 : AlterConfigsResourceResponse33) : AlterConfigsResourceResponse33 :=
  { ErrorCode := y.ErrorCode,
    ErrorMessage := y.ErrorMessage,
    ResourceType := y.ResourceType,
    ResourceName := y.ResourceName }

/-- An array of structures is nil. -/
def AlterConfigsResourceResponse33.Nulls (_version : Int16) (_y : AlterConfigsResourceResponse33) : Prop :=
  False

/-- `AlterConfigsResourceResponse33` in use again. -/
def AlterConfigsResourceResponse33.reuse : Reuse AlterConfigsResourceResponse33.type := { over := AlterConfigsResourceResponse33.over, Nulls := AlterConfigsResourceResponse33.Nulls }

/-- The same after the first `k` statements of `Decode`. -/
def AlterConfigsResourceResponse33.overAt (_version : Int16) (k : Nat) (y t0 : AlterConfigsResourceResponse33) : AlterConfigsResourceResponse33 :=
  { ErrorCode := upto k 0 (y.ErrorCode) t0.ErrorCode,
    ErrorMessage := upto k 1 (y.ErrorMessage) t0.ErrorMessage,
    ResourceType := upto k 2 (y.ResourceType) t0.ResourceType,
    ResourceName := upto k 3 (y.ResourceName) t0.ResourceName }

theorem AlterConfigsResourceResponse33.sim (v : Int16) (t0 : AlterConfigsResourceResponse33) : Sim (AlterConfigsResourceResponse33.overAt v 0 · t0) (AlterConfigsResourceResponse33.overAt v 4 · t0) (AlterConfigsResourceResponse33.decode v) :=
  ((.field fun _ _ => rfl) : Sim (AlterConfigsResourceResponse33.overAt v 0 · t0) (AlterConfigsResourceResponse33.overAt v 1 · t0) _)
    |>.andThen ((.field fun _ _ => rfl) : Sim (AlterConfigsResourceResponse33.overAt v 1 · t0) (AlterConfigsResourceResponse33.overAt v 2 · t0) _)
    |>.andThen ((.field fun _ _ => rfl) : Sim (AlterConfigsResourceResponse33.overAt v 2 · t0) (AlterConfigsResourceResponse33.overAt v 3 · t0) _)
    |>.andThen ((.field fun _ _ => rfl) : Sim (AlterConfigsResourceResponse33.overAt v 3 · t0) (AlterConfigsResourceResponse33.overAt v 4 · t0) _)
theorem AlterConfigsResourceResponse33.reusable : AlterConfigsResourceResponse33.reuse.Holds AlterConfigsResourceResponse33.layout where
  decode v t0 d := by
    have h := AlterConfigsResourceResponse33.sim v t0 {} d
    have e : AlterConfigsResourceResponse33.overAt v 0 {} t0 = t0 := by first | rfl | (simp only [AlterConfigsResourceResponse33.overAt, upto_zero, Option.none_or, ite_self] <;> rfl)
    simp only [e] at h
    exact h
  same v y t0 _h := (app_congr (app_congr (app_congr rfl rfl) rfl) rfl)
  stale _ _ h := h.elim

/-- What `t0` becomes where a new `AlterConfigsResponse` becomes `y`. -/
def AlterConfigsResponse.over (_version : Int16) (y t0 : AlterConfigsResponse) : AlterConfigsResponse :=
  { ThrottleTimeMs := y.ThrottleTimeMs,
    Responses := y.Responses.or t0.Responses }

/-- An array of structures is nil. -/
def AlterConfigsResponse.Nulls (_version : Int16) (y : AlterConfigsResponse) : Prop :=
  y.Responses = none

/-- `AlterConfigsResponse` in use again. -/
def AlterConfigsResponse.reuse : Reuse AlterConfigsResponse.type := { over := AlterConfigsResponse.over, Nulls := AlterConfigsResponse.Nulls }

/-- The same after the first `k` statements of `Decode`. -/
def AlterConfigsResponse.overAt (_version : Int16) (k : Nat) (y t0 : AlterConfigsResponse) : AlterConfigsResponse :=
  { ThrottleTimeMs := upto k 0 (y.ThrottleTimeMs) t0.ThrottleTimeMs,
    Responses := y.Responses.or t0.Responses }

theorem AlterConfigsResponse.sim (v : Int16) (t0 : AlterConfigsResponse) : Sim (AlterConfigsResponse.overAt v 0 · t0) (AlterConfigsResponse.overAt v 2 · t0) (AlterConfigsResponse.decode v) :=
  ((.field fun _ _ => rfl) : Sim (AlterConfigsResponse.overAt v 0 · t0) (AlterConfigsResponse.overAt v 1 · t0) _)
    |>.andThen ((.structs (fun _ _ => rfl) fun _ => rfl) : Sim (AlterConfigsResponse.overAt v 1 · t0) (AlterConfigsResponse.overAt v 2 · t0) _)
theorem AlterConfigsResponse.reusable : AlterConfigsResponse.reuse.Holds AlterConfigsResponse.layout where
  decode v t0 d := by
    have h := AlterConfigsResponse.sim v t0 {} d
    have e : AlterConfigsResponse.overAt v 0 {} t0 = t0 := by first | rfl | (simp only [AlterConfigsResponse.overAt, upto_zero, Option.none_or, ite_self] <;> rfl)
    simp only [e] at h
    exact h
  same v y t0 h := (app_congr rfl (same_or fun hn => h (hn)))
  stale v y h := by
    obtain h := h
    · exact ⟨({ Responses := some [{}] } : AlterConfigsResponse), (app_ne_right rfl (stale_or h))⟩

/-- The structures of the AlterConfigs messages. -/
def reuseAlterConfigs : List (Σ (M : MsgType) (_ : Layout M), Reuse M) :=
  [⟨AlterConfigsRequest.type, AlterConfigsRequest.layout, AlterConfigsRequest.reuse⟩,
   ⟨AlterConfigsResource33.type, AlterConfigsResource33.layout, AlterConfigsResource33.reuse⟩,
   ⟨AlterableConfig33.type, AlterableConfig33.layout, AlterableConfig33.reuse⟩,
   ⟨AlterConfigsResponse.type, AlterConfigsResponse.layout, AlterConfigsResponse.reuse⟩,
   ⟨AlterConfigsResourceResponse33.type, AlterConfigsResourceResponse33.layout, AlterConfigsResourceResponse33.reuse⟩]
theorem reuseAlterConfigs_holds : ∀ p ∈ reuseAlterConfigs, p.2.2.Holds p.2.1 := by
  unfold reuseAlterConfigs
  simp only [List.forall_mem_cons]
  exact ⟨AlterConfigsRequest.reusable, AlterConfigsResource33.reusable, AlterableConfig33.reusable, AlterConfigsResponse.reusable, AlterConfigsResourceResponse33.reusable, fun _ h => absurd h (by simp)⟩

end Kafka.Msg
